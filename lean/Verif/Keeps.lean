/-
What a decoder makes of a tree, encoded again: how deep it nests, which numbers it contains.
Proof helpers for the payload types; the statements for all of them are in Verif/Received.lean.
-/
import Verif.Payload
import Verif.JsonPrint

namespace Bsp
open Json

namespace Spec
mutual
/-- The integers fit `u64` or `i64`. Specification about the texts of bsp-server/src/message.rs:37. -/
def IntsFit : Json → Prop
  | .int i => -2 ^ 63 ≤ i ∧ i < 2 ^ 64
  | .arr xs => IntsFitList xs
  | .obj ms => IntsFitMembers ms
  | _ => True
/-- All elements satisfy `IntsFit`. Specification about the texts of bsp-server/src/message.rs:37. -/
def IntsFitList : List Json → Prop
  | [] => True
  | x :: xs => IntsFit x ∧ IntsFitList xs
/-- All members satisfy `IntsFit`. Specification about the texts of bsp-server/src/message.rs:37. -/
def IntsFitMembers : Members → Prop
  | [] => True
  | (_, x) :: ms => IntsFit x ∧ IntsFitMembers ms
end
mutual
/-- The doubles are printed and parsed faithfully (serde_json guarantees it only with its feature
`float_roundtrip`, which bsp-server/Cargo.toml does not enable, so it is asked of the doubles that occur).
Specification about the texts of bsp-server/src/message.rs:44. -/
def FloatsOk [FloatText] : Json → Prop
  | .float f => FloatOk f
  | .arr xs => FloatsOkList xs
  | .obj ms => FloatsOkMembers ms
  | _ => True
/-- All elements satisfy `FloatsOk`. Specification about the texts of bsp-server/src/message.rs:44. -/
def FloatsOkList [FloatText] : List Json → Prop
  | [] => True
  | x :: xs => FloatsOk x ∧ FloatsOkList xs
/-- All members satisfy `FloatsOk`. Specification about the texts of bsp-server/src/message.rs:44. -/
def FloatsOkMembers [FloatText] : Members → Prop
  | [] => True
  | (_, x) :: ms => FloatsOk x ∧ FloatsOkMembers ms
end
end Spec

/-- A tree of at most `d` levels with integers that serde_json can hold: what can be
inside a text that bsp-server/src/message.rs:37 accepts. -/
def Spec.Fits (d : Nat) (j : Json) : Prop := Spec.nest j ≤ d ∧ Spec.IntsFit j

/-- The same for members of an object (bsp-server/src/message.rs:37). -/
def Spec.FitsAll (d : Nat) (ms : Members) : Prop := ∀ m ∈ ms, Spec.Fits d m.2

/-- What `dec` accepts from a tree that fits is written by `enc` as a tree that fits (for the types of
bsp-types/src/lib.rs:1-56). -/
def Spec.Keeps (d : Nat) (dec : Json → Option α) (enc : α → Json) : Prop :=
  ∀ j x, dec j = some x → Spec.Fits d j → Spec.Fits d (enc x)

section
open Spec

theorem fits_mono {a b : Nat} (h : a ≤ b) {j : Json} (hj : Fits a j) : Fits b j :=
  ⟨Nat.le_trans hj.1 h, hj.2⟩

theorem fits_str (d : Nat) (s : String) : Fits d (.str s) := by simp [Fits, nest, IntsFit]
theorem fits_bool (d : Nat) (b : Bool) : Fits d (.bool b) := by simp [Fits, nest, IntsFit]
theorem fits_null (d : Nat) : Fits d .null := by simp [Fits, nest, IntsFit]
theorem fits_int (d : Nat) {i : Int} (h1 : -2 ^ 63 ≤ i) (h2 : i < 2 ^ 64) : Fits d (.int i) := by
  simp only [Fits, nest, IntsFit]; omega

mutual
theorem numbers_iff [FloatText] : ∀ {j : Json}, Numbers j ↔ IntsFit j ∧ FloatsOk j
  | .arr xs => by simp only [Numbers, IntsFit, FloatsOk]; exact numbersList_split
  | .obj ms => by simp only [Numbers, IntsFit, FloatsOk]; exact numbersMembers_split
  | .null => by simp [Numbers, IntsFit, FloatsOk]
  | .bool b => by simp [Numbers, IntsFit, FloatsOk]
  | .int i => by simp [Numbers, IntsFit, FloatsOk]
  | .float f => by simp [Numbers, IntsFit, FloatsOk]
  | .str s => by simp [Numbers, IntsFit, FloatsOk]
theorem numbersList_split [FloatText] : ∀ {xs : List Json}, NumbersList xs ↔ IntsFitList xs ∧ FloatsOkList xs
  | [] => by simp [NumbersList, IntsFitList, FloatsOkList]
  | x :: xs => by
    simp only [NumbersList, IntsFitList, FloatsOkList, numbers_iff (j := x), numbersList_split (xs := xs)]
    grind
theorem numbersMembers_split [FloatText] : ∀ {ms : Members},
    NumbersMembers ms ↔ IntsFitMembers ms ∧ FloatsOkMembers ms
  | [] => by simp [NumbersMembers, IntsFitMembers, FloatsOkMembers]
  | (k, x) :: xs => by
    simp only [NumbersMembers, IntsFitMembers, FloatsOkMembers, numbers_iff (j := x),
      numbersMembers_split (ms := xs)]
    grind
end

theorem intsMembers_iff {ms : Members} : IntsFitMembers ms ↔ ∀ m ∈ ms, IntsFit m.2 := by
  induction ms with
  | nil => simp [IntsFitMembers]
  | cons m ms ih => obtain ⟨k, v⟩ := m; simp [IntsFitMembers, ih]

theorem intsList_iff {xs : List Json} : IntsFitList xs ↔ ∀ x ∈ xs, IntsFit x := by
  induction xs with
  | nil => simp [IntsFitList]
  | cons x xs ih => simp [IntsFitList, ih]

theorem nestMembers_le_iff {ms : Members} {d : Nat} : nestMembers ms ≤ d ↔ ∀ m ∈ ms, nest m.2 ≤ d := by
  induction ms with
  | nil => simp [nestMembers]
  | cons m ms ih => obtain ⟨k, v⟩ := m; simp only [nestMembers, Nat.max_le, ih, List.forall_mem_cons]

theorem nestList_le_iff {xs : List Json} {d : Nat} : nestList xs ≤ d ↔ ∀ x ∈ xs, nest x ≤ d := by
  induction xs with
  | nil => simp [nestList]
  | cons x xs ih => simp only [nestList, Nat.max_le, ih, List.forall_mem_cons]

theorem fits_obj {d : Nat} {ms : Members} : Fits (d + 1) (.obj ms) ↔ FitsAll d ms := by
  simp only [Fits, nest, IntsFit, FitsAll, Nat.add_le_add_iff_right, nestMembers_le_iff,
    intsMembers_iff]
  exact ⟨fun h m hm => ⟨h.1 m hm, h.2 m hm⟩, fun h => ⟨fun m hm => (h m hm).1, fun m hm => (h m hm).2⟩⟩

theorem fits_arr {d : Nat} {xs : List Json} : Fits (d + 1) (.arr xs) ↔ ∀ x ∈ xs, Fits d x := by
  simp only [Fits, nest, IntsFit, Nat.add_le_add_iff_right, nestList_le_iff, intsList_iff]
  exact ⟨fun h m hm => ⟨h.1 m hm, h.2 m hm⟩, fun h => ⟨fun m hm => (h m hm).1, fun m hm => (h m hm).2⟩⟩

theorem fitsAll_append {d : Nat} {a b : Members} (ha : FitsAll d a) (hb : FitsAll d b) :
    FitsAll d (a ++ b) := by
  intro m hm
  rcases List.mem_append.1 hm with h | h
  · exact ha m h
  · exact hb m h

theorem fitsAll_fld {d : Nat} {k : String} {j : Json} (h : Fits d j) : FitsAll d (fld k j) := by
  intro m hm; simp [fld] at hm; subst hm; exact h

theorem fitsAll_skipNone {d : Nat} {k : String} {enc : α → Json} {o : Option α}
    (h : ∀ x, o = some x → Fits d (enc x)) : FitsAll d (skipNone k enc o) := by
  cases o with
  | none => intro m hm; simp [skipNone] at hm
  | some x => intro m hm; simp [skipNone] at hm; subst hm; exact h x rfl

theorem fitsAll_skipIf {d : Nat} {c : Bool} {k : String} {j : Json} (h : Fits d j) :
    FitsAll d (skipIf c k j) := by
  cases c with
  | true => intro m hm; simp [skipIf] at hm
  | false => intro m hm; simp [skipIf] at hm; subst hm; exact h

/-! ### `Value` -/

theorem fitsAll_insertKV {d : Nat} {k : String} {v : Json} {ms : Members} (hv : Fits d v)
    (h : FitsAll d ms) : FitsAll d (insertKV k v ms) := by
  induction ms with
  | nil => intro m hm; simp [insertKV] at hm; subst hm; exact hv
  | cons n ms ih =>
    obtain ⟨k', v'⟩ := n
    have h1 := h (k', v') (by simp)
    have h2 : FitsAll d ms := fun m hm => h m (List.mem_cons_of_mem _ hm)
    intro m hm
    simp only [insertKV] at hm
    split at hm
    · simp only [List.mem_cons] at hm
      rcases hm with rfl | rfl | hm
      · exact hv
      · exact h1
      · exact h2 m hm
    · split at hm
      · simp only [List.mem_cons] at hm
        rcases hm with rfl | hm
        · exact hv
        · exact h2 m hm
      · simp only [List.mem_cons] at hm
        rcases hm with rfl | hm
        · exact h1
        · exact ih h2 m hm

mutual
theorem fits_canon : ∀ {d : Nat} {j : Json}, Fits d j → Fits d (canon j)
  | d, .arr xs, h => by
    cases d with
    | zero => simp [Fits, nest] at h
    | succ d => rw [canon, fits_arr]; rw [fits_arr] at h; exact fits_canonList h
  | d, .obj ms, h => by
    cases d with
    | zero => simp [Fits, nest] at h
    | succ d =>
      rw [canon, fits_obj]; rw [fits_obj] at h
      exact fits_canonMembers h (fun m hm => by simp at hm)
  | d, .null, h => by simpa [canon] using h
  | d, .bool b, h => by simpa [canon] using h
  | d, .int i, h => by simpa [canon] using h
  | d, .float f, h => by simpa [canon] using h
  | d, .str s, h => by simpa [canon] using h
theorem fits_canonList : ∀ {d : Nat} {xs : List Json}, (∀ x ∈ xs, Fits d x) →
    ∀ x ∈ canonList xs, Fits d x
  | d, [], _, x, hx => by simp [canonList] at hx
  | d, y :: ys, h, x, hx => by
    simp only [canonList, List.mem_cons] at hx
    rcases hx with rfl | hx
    · exact fits_canon (h y (by simp))
    · exact fits_canonList (fun z hz => h z (List.mem_cons_of_mem _ hz)) x hx
theorem fits_canonMembers : ∀ {d : Nat} {ms acc : Members}, FitsAll d ms → FitsAll d acc →
    FitsAll d (canonMembers ms acc)
  | d, [], acc, _, ha => by simpa [canonMembers] using ha
  | d, (k, v) :: ms, acc, h, ha => by
    rw [canonMembers]
    exact fits_canonMembers (fun m hm => h m (List.mem_cons_of_mem _ hm))
      (fitsAll_insertKV (fits_canon (h (k, v) (by simp))) ha)
end

/-! ### Primitive types -/

theorem keeps_str (d : Nat) : Keeps d decStr Json.str := fun _ _ _ _ => fits_str d _
theorem keeps_bool (d : Nat) : Keeps d decBool Json.bool := fun _ _ _ _ => fits_bool d _
theorem fits_encU32 (d : Nat) (x : UInt32) : Fits d (encU32 x) := by
  have := x.toNat_lt
  exact fits_int d (by omega) (by omega)
theorem keeps_u32 (d : Nat) : Keeps d decU32 encU32 := fun _ x _ _ => fits_encU32 d x
theorem fits_encUsize (d : Nat) (x : UInt64) : Fits d (encUsize x) := by
  have := x.toNat_lt
  exact fits_int d (by omega) (by omega)
theorem keeps_usize (d : Nat) : Keeps d decUsize encUsize := fun _ x _ _ => fits_encUsize d x
theorem fits_encI32 (d : Nat) (x : Int32) : Fits d (encI32 x) := by
  have h1 := x.toInt_lt
  have h2 := x.le_toInt
  exact fits_int d (by omega) (by omega)
theorem keeps_value (d : Nat) : Keeps d decValue Value.json := by
  intro j x h hj
  cases h
  exact fits_canon hj
theorem keeps_url [Ext] (d : Nat) : Keeps d decUrl encUrl := fun _ _ _ _ => fits_str d _
theorem keeps_kind (d : Nat) : Keeps d TaskDataKind.dec TaskDataKind.enc := by
  intro _ x _ _
  cases x <;> first | exact fits_str d _ | exact fits_null d
theorem keeps_messageType (d : Nat) : Keeps d MessageType.dec MessageType.enc := by
  intro _ x _ _
  cases x <;> exact fits_int d (by decide) (by decide)
theorem keeps_taskStatus (d : Nat) : Keeps d TaskStatus.dec TaskStatus.enc := by
  intro _ x _ _
  cases x <;> exact fits_int d (by decide) (by decide)
theorem keeps_buildTargetEventKind (d : Nat) : Keeps d BuildTargetEventKind.dec BuildTargetEventKind.enc := by
  intro _ x _ _
  cases x <;> exact fits_int d (by decide) (by decide)
theorem keeps_sourceKind (d : Nat) : Keeps d SourceKind.dec SourceKind.enc := by
  intro _ x _ _
  cases x <;> exact fits_int d (by decide) (by decide)
theorem keeps_i32 (d : Nat) : Keeps d decI32 encI32 := fun _ x _ _ => fits_encI32 d x
theorem keeps_numberOrString (d : Nat) : Keeps d NumberOrString.dec NumberOrString.enc := by
  intro _ x _ _
  cases x with
  | number n => exact fits_encI32 d n
  | string s => exact fits_str d s
theorem keeps_buildTargetTag {d : Nat} (hd : 1 ≤ d) : Keeps d BuildTargetTag.dec BuildTargetTag.enc := by
  intro _ x _ _
  obtain ⟨d, rfl⟩ : ∃ e, d = e + 1 := ⟨d - 1, by omega⟩
  cases x <;> first | exact fits_str _ _ | exact fits_obj.2 (fitsAll_fld (k := "custom") (fits_str d _))

theorem mapM_mem {dec : Json → Option α} : ∀ {xs : List Json} {ys : List α}, xs.mapM dec = some ys →
    ∀ y ∈ ys, ∃ x ∈ xs, dec x = some y
  | [], ys, h, y, hy => by
    have e : ys = [] := by simpa [List.mapM_nil] using h.symm
    subst e
    simp at hy
  | x :: xs, ys, h, y, hy => by
    simp only [List.mapM_cons, Option.bind_eq_bind, Option.bind_eq_some_iff] at h
    obtain ⟨a, ha, b, hb, e⟩ := h
    cases e
    rcases List.mem_cons.1 hy with rfl | hy
    · exact ⟨x, by simp, ha⟩
    · obtain ⟨x', h1, h2⟩ := mapM_mem hb y hy
      exact ⟨x', List.mem_cons_of_mem _ h1, h2⟩

theorem decList_mem {dec : Json → Option α} {j : Json} {ys : List α} (h : decList dec j = some ys) :
    ∃ xs, j = .arr xs ∧ ∀ y ∈ ys, ∃ x ∈ xs, dec x = some y := by
  cases j with
  | arr xs => exact ⟨xs, rfl, mapM_mem h⟩
  | _ => simp [decList] at h

theorem keeps_list {d : Nat} {dec : Json → Option α} {enc : α → Json} (h : Keeps d dec enc) :
    Keeps (d + 1) (decList dec) (encList enc) := by
  intro j ys hj hf
  obtain ⟨xs, rfl, hm⟩ := decList_mem hj
  rw [fits_arr] at hf
  refine fits_arr.2 fun x hx => ?_
  obtain ⟨y, hy, rfl⟩ := List.mem_map.1 hx
  obtain ⟨x', h1, h2⟩ := hm y hy
  exact h x' y h2 (hf x' h1)

theorem keeps_list' {d : Nat} {dec : Json → Option α} {enc : α → Json} (hd : 1 ≤ d)
    (h : Keeps (d - 1) dec enc) : Keeps d (decList dec) (encList enc) := by
  obtain ⟨d, rfl⟩ : ∃ e, d = e + 1 := ⟨d - 1, by omega⟩
  exact keeps_list h

theorem fits_nil {d : Nat} (hd : 1 ≤ d) : Fits d (.arr []) := by
  simpa [Fits, nest, nestList, IntsFit, IntsFitList] using hd

theorem decOpt_some {dec : Json → Option α} {j : Json} {x : α} (h : decOpt dec j = some (some x)) :
    j ≠ .null ∧ dec j = some x := by
  cases j <;> simp_all [decOpt]

theorem keeps_opt {d : Nat} {dec : Json → Option α} {enc : α → Json} (h : Keeps d dec enc) :
    Keeps d (decOpt dec) (encOpt enc) := by
  intro j o hj hf
  cases o with
  | none => exact fits_null d
  | some x => exact h j x (decOpt_some hj).2 hf

/-! ### Structures -/

theorem get_fits {d : Nat} {fields : List String} {j : Json} {s : Src}
    (h : structSrc fields j = some s) (hj : Fits (d + 1) j) {i : Nat} {k : String} {t : Json}
    (ht : s.get i k = some t) : Fits d t := by
  cases j with
  | obj ms =>
    simp only [structSrc] at h
    split at h
    · cases h
    · cases h
      rw [fits_obj] at hj
      exact hj (k, t) (lookup_mem ht)
  | arr xs =>
    simp only [structSrc] at h
    split at h
    · cases h
    · cases h
      rw [fits_arr] at hj
      exact hj t (List.mem_of_getElem? ht)
  | _ => simp [structSrc] at h
where
  lookup_mem : ∀ {ms : Members} {k : String} {t : Json}, List.lookup k ms = some t → (k, t) ∈ ms
    | [], k, t, h => by simp at h
    | (k', v) :: ms, k, t, h => by
      simp only [List.lookup] at h
      split at h
      · rename_i e
        simp at e h
        subst e h
        simp
      · exact List.mem_cons_of_mem _ (lookup_mem h)

theorem req_fits {d : Nat} {fields : List String} {j : Json} {s : Src} {dec : Json → Option α}
    {enc : α → Json} (hk : Keeps d dec enc) (h : structSrc fields j = some s) (hj : Fits (d + 1) j)
    {i : Nat} {k : String} {x : α} (hx : s.req i k dec = some x) : Fits d (enc x) := by
  simp only [Src.req, Option.bind_eq_some_iff] at hx
  obtain ⟨t, ht, hx⟩ := hx
  exact hk t x hx (get_fits h hj ht)

theorem opt_fits {d : Nat} {fields : List String} {j : Json} {s : Src} {dec : Json → Option α}
    {enc : α → Json} (hk : Keeps d dec enc) (h : structSrc fields j = some s) (hj : Fits (d + 1) j)
    {i : Nat} {k : String} {o : Option α} (hx : s.opt i k dec = some o) (x : α) (hox : o = some x) :
    Fits d (enc x) := by
  subst hox
  simp only [Src.opt] at hx
  split at hx
  · rename_i t ht
    exact hk t x (decOpt_some hx).2 (get_fits h hj ht)
  · split at hx <;> simp at hx

theorem opt_keep_fits {d : Nat} {fields : List String} {j : Json} {s : Src} {dec : Json → Option α}
    {enc : α → Json} (hk : Keeps d dec enc) (h : structSrc fields j = some s) (hj : Fits (d + 1) j)
    {i : Nat} {k : String} {o : Option α} (hx : s.opt i k dec = some o) : Fits d (encOpt enc o) := by
  cases o with
  | none => exact fits_null d
  | some x => exact opt_fits hk h hj hx x rfl

theorem dflt_fits {d : Nat} {fields : List String} {j : Json} {s : Src} {dec : Json → Option α}
    {enc : α → Json} (hk : Keeps d dec enc) (h : structSrc fields j = some s) (hj : Fits (d + 1) j)
    {i : Nat} {k : String} {x y : α} (hy : Fits d (enc y)) (hx : s.dflt i k y dec = some x) :
    Fits d (enc x) := by
  simp only [Src.dflt] at hx
  split at hx
  · rename_i t ht
    exact hk t x hx (get_fits h hj ht)
  · cases hx; exact hy

theorem dflt_opt_fits {d : Nat} {fields : List String} {j : Json} {s : Src} {dec : Json → Option α}
    {enc : α → Json} (hk : Keeps d dec enc) (h : structSrc fields j = some s) (hj : Fits (d + 1) j)
    {i : Nat} {k : String} {o : Option α} (hx : s.dflt i k none (decOpt dec) = some o) (x : α)
    (hox : o = some x) : Fits d (enc x) := by
  have := dflt_fits (keeps_opt hk) h hj (y := none) (fits_null d) hx
  subst hox
  exact this

end

/-! ### What is received is plain -/

theorem opt_value_plain {s : Src} {i : Nat} {k : String} {o : Option Value}
    (h : s.opt i k decValue = some o) : o ≠ some Value.null := by
  rintro rfl
  simp only [Src.opt] at h
  split at h
  · rename_i t ht
    obtain ⟨h1, h2⟩ := decOpt_some h
    exact h1 (value_null h2)
  · split at h <;> simp at h
where
  value_null {t : Json} (h : decValue t = some Value.null) : t = .null := by
    have e : canon t = .null := congrArg Value.json (Option.some.inj h)
    cases t <;> simp [canon] at e ⊢

theorem dflt_value_plain {s : Src} {i : Nat} {k : String} {o : Option Value}
    (h : s.dflt i k none (decOpt decValue) = some o) : o ≠ some Value.null := by
  rintro rfl
  simp only [Src.dflt] at h
  split at h
  · rename_i t ht
    obtain ⟨h1, h2⟩ := decOpt_some h
    exact h1 (opt_value_plain.value_null h2)
  · cases h

theorem kind_plain {j : Json} {x : TaskDataKind} (h : TaskDataKind.dec j = some x) :
    ∀ s ∈ reservedKinds, x ≠ .custom s := by
  intro s hs e
  subst e
  simp only [TaskDataKind.dec] at h
  split at h
  · rename_i t ht
    simp only [reservedKinds, List.mem_cons, List.not_mem_nil, or_false] at hs
    simp only [Option.some.injEq, TaskDataKind.ofString] at h
    grind
  · cases h

theorem dflt_kind_plain {s : Src} {i : Nat} {k : String} {x : TaskDataKind}
    (h : s.dflt i k TaskDataKind.none TaskDataKind.dec = some x) :
    ∀ s ∈ reservedKinds, x ≠ .custom s := by
  simp only [Src.dflt] at h
  split at h
  · exact kind_plain h
  · cases h; simp

theorem req_list_plain {s : Src} {i : Nat} {k : String} {dec : Json → Option α} {P : α → Prop}
    {xs : List α} (hP : ∀ j x, dec j = some x → P x) (h : s.req i k (decList dec) = some xs) :
    ∀ x ∈ xs, P x := by
  simp only [Src.req, Option.bind_eq_some_iff] at h
  obtain ⟨t, ht, h⟩ := h
  obtain ⟨ys, rfl, hm⟩ := decList_mem h
  intro x hx
  obtain ⟨y, _, hy⟩ := hm x hx
  exact hP y x hy

end Bsp
