/-
Trees in which every double is replaced by another: nothing that a schema or a decoder looks at changes.  This is what
connects the text of doubles (Verif/Double.lean) with messages (Verif/Props/Floats.lean).
-/
import Verif.SchemaTable
import Verif.Props.Schema

set_option linter.unusedSectionVars false

namespace Bsp

namespace Spec
mutual
/-- Replace every double of a tree.
Specification about the values of bsp-server/src/message.rs:37, 44. -/
def mapFloats (r : F64 → F64) : Json → Json
  | .float f => .float (r f)
  | .arr xs => .arr (mapFloatsList r xs)
  | .obj ms => .obj (mapFloatsMembers r ms)
  | .null => .null
  | .bool b => .bool b
  | .int i => .int i
  | .str s => .str s
/-- In the elements of an array. Specification about the values of bsp-server/src/message.rs:37, 44. -/
def mapFloatsList (r : F64 → F64) : List Json → List Json
  | [] => []
  | x :: xs => mapFloats r x :: mapFloatsList r xs
/-- In the members of an object. Specification about the values of bsp-server/src/message.rs:37, 44. -/
def mapFloatsMembers (r : F64 → F64) : Members → Members
  | [] => []
  | (k, x) :: ms => (k, mapFloats r x) :: mapFloatsMembers r ms
end

mutual
/-- A property of every double in a tree. Specification about the values of bsp-server/src/message.rs:37, 44. -/
def Floats (P : F64 → Prop) : Json → Prop
  | .float f => P f
  | .arr xs => FloatsList P xs
  | .obj ms => FloatsMembers P ms
  | _ => True
/-- In the elements of an array. Specification about the values of bsp-server/src/message.rs:37, 44. -/
def FloatsList (P : F64 → Prop) : List Json → Prop
  | [] => True
  | x :: xs => Floats P x ∧ FloatsList P xs
/-- In the members of an object. Specification about the values of bsp-server/src/message.rs:37, 44. -/
def FloatsMembers (P : F64 → Prop) : Members → Prop
  | [] => True
  | (_, x) :: ms => Floats P x ∧ FloatsMembers P ms
end

mutual
/-- There is no double in the tree. Helper about the schemas of bsp-types/src/lib.rs:1-56. -/
def floatless : Json → Bool
  | .float _ => false
  | .arr xs => floatlessList xs
  | .obj ms => floatlessMembers ms
  | _ => true
/-- In the elements of an array. Helper about the schemas of bsp-types/src/lib.rs:1-56. -/
def floatlessList : List Json → Bool
  | [] => true
  | x :: xs => floatless x && floatlessList xs
/-- In the members of an object. Helper about the schemas of bsp-types/src/lib.rs:1-56. -/
def floatlessMembers : Members → Bool
  | [] => true
  | (_, x) :: ms => floatless x && floatlessMembers ms
end

mutual
/-- No default and no omitted value contains a double. Helper about the schemas of bsp-types/src/lib.rs:1-56. -/
def Ty.tame : Ty → Bool
  | .opt t => t.tame
  | .list t => t.tame
  | .struct fs => fs.tame
  | _ => true
/-- The same for members. Helper about the schemas of bsp-types/src/lib.rs:1-56. -/
def Fields.tame : Fields → Bool
  | .nil => true
  | .cons _ a o t fs => floatless a.tree && (o.all floatless && (t.tame && fs.tame))
end
end Spec

open Json Spec

/-! ### Trees -/

theorem mapFloatsList_eq (r : F64 → F64) (xs : List Json) : mapFloatsList r xs = xs.map (mapFloats r) := by
  induction xs with
  | nil => rfl
  | cons x xs ih => simp [mapFloatsList, ih]

theorem mapFloatsMembers_eq (r : F64 → F64) (ms : Members) :
    mapFloatsMembers r ms = ms.map (fun m => (m.1, mapFloats r m.2)) := by
  induction ms with
  | nil => rfl
  | cons x xs ih => obtain ⟨k, x⟩ := x; simp [mapFloatsMembers, ih]

theorem mapFloatsMembers_append (r : F64 → F64) (a b : Members) :
    mapFloatsMembers r (a ++ b) = mapFloatsMembers r a ++ mapFloatsMembers r b := by
  simp [mapFloatsMembers_eq]

theorem keys_mapFloats (r : F64 → F64) (ms : Members) : keys (mapFloatsMembers r ms) = keys ms := by
  simp [mapFloatsMembers_eq, keys, Function.comp_def]

mutual
theorem nest_mapFloats (r : F64 → F64) : ∀ j : Json, nest (mapFloats r j) = nest j
  | .arr xs => by simp [mapFloats, nest, nestList_mapFloats r xs]
  | .obj ms => by simp [mapFloats, nest, nestMembers_mapFloats r ms]
  | .null => rfl
  | .bool _ => rfl
  | .int _ => rfl
  | .float _ => rfl
  | .str _ => rfl
theorem nestList_mapFloats (r : F64 → F64) : ∀ xs : List Json, nestList (mapFloatsList r xs) = nestList xs
  | [] => rfl
  | x :: xs => by simp [mapFloatsList, nestList, nest_mapFloats r x, nestList_mapFloats r xs]
theorem nestMembers_mapFloats (r : F64 → F64) : ∀ ms : Members, nestMembers (mapFloatsMembers r ms) = nestMembers ms
  | [] => rfl
  | (_, x) :: ms => by simp [mapFloatsMembers, nestMembers, nest_mapFloats r x, nestMembers_mapFloats r ms]
end

mutual
theorem mapFloats_floatless (r : F64 → F64) : ∀ {j : Json}, floatless j = true → mapFloats r j = j
  | .arr xs, h => by simp only [floatless] at h; simp [mapFloats, mapFloatsList_floatless r h]
  | .obj ms, h => by simp only [floatless] at h; simp [mapFloats, mapFloatsMembers_floatless r h]
  | .null, _ => rfl
  | .bool _, _ => rfl
  | .int _, _ => rfl
  | .float _, h => by simp [floatless] at h
  | .str _, _ => rfl
theorem mapFloatsList_floatless (r : F64 → F64) : ∀ {xs : List Json}, floatlessList xs = true → mapFloatsList r xs = xs
  | [], _ => rfl
  | x :: xs, h => by
    simp only [floatlessList, Bool.and_eq_true] at h
    simp [mapFloatsList, mapFloats_floatless r h.1, mapFloatsList_floatless r h.2]
theorem mapFloatsMembers_floatless (r : F64 → F64) : ∀ {ms : Members}, floatlessMembers ms = true →
    mapFloatsMembers r ms = ms
  | [], _ => rfl
  | (_, x) :: ms, h => by
    simp only [floatlessMembers, Bool.and_eq_true] at h
    simp [mapFloatsMembers, mapFloats_floatless r h.1, mapFloatsMembers_floatless r h.2]
end

mutual
theorem floatless_mapFloats (r : F64 → F64) : ∀ j : Json, floatless (mapFloats r j) = floatless j
  | .arr xs => by simp [mapFloats, floatless, floatlessList_mapFloats r xs]
  | .obj ms => by simp [mapFloats, floatless, floatlessMembers_mapFloats r ms]
  | .null => rfl
  | .bool _ => rfl
  | .int _ => rfl
  | .float _ => rfl
  | .str _ => rfl
theorem floatlessList_mapFloats (r : F64 → F64) : ∀ xs : List Json, floatlessList (mapFloatsList r xs) = floatlessList xs
  | [] => rfl
  | x :: xs => by simp [mapFloatsList, floatlessList, floatless_mapFloats r x, floatlessList_mapFloats r xs]
theorem floatlessMembers_mapFloats (r : F64 → F64) : ∀ ms : Members,
    floatlessMembers (mapFloatsMembers r ms) = floatlessMembers ms
  | [] => rfl
  | (_, x) :: ms => by simp [mapFloatsMembers, floatlessMembers, floatless_mapFloats r x, floatlessMembers_mapFloats r ms]
end

theorem mapFloats_eq_floatless {r : F64 → F64} {j k : Json} (hk : floatless k = true) : mapFloats r j = k ↔ j = k := by
  constructor
  · intro h
    have : floatless j = true := by rw [← floatless_mapFloats r, h, hk]
    rwa [mapFloats_floatless r this] at h
  · rintro rfl; exact mapFloats_floatless r hk

theorem mapFloats_eq_null {r : F64 → F64} {j : Json} : mapFloats r j = .null ↔ j = .null := mapFloats_eq_floatless rfl
theorem mapFloats_eq_str {r : F64 → F64} {j : Json} {s : String} : mapFloats r j = .str s ↔ j = .str s :=
  mapFloats_eq_floatless rfl
theorem mapFloats_eq_bool {r : F64 → F64} {j : Json} {s : Bool} : mapFloats r j = .bool s ↔ j = .bool s :=
  mapFloats_eq_floatless rfl
theorem mapFloats_eq_int {r : F64 → F64} {j : Json} {s : Int} : mapFloats r j = .int s ↔ j = .int s :=
  mapFloats_eq_floatless rfl

theorem mapFloats_eq_arr {r : F64 → F64} {j : Json} {ys : List Json} :
    mapFloats r j = .arr ys ↔ ∃ xs, j = .arr xs ∧ ys = mapFloatsList r xs := by
  cases j <;> simp [mapFloats, eq_comm]

theorem mapFloats_eq_obj {r : F64 → F64} {j : Json} {ns : Members} :
    mapFloats r j = .obj ns ↔ ∃ ms, j = .obj ms ∧ ns = mapFloatsMembers r ms := by
  cases j <;> simp [mapFloats, eq_comm]

mutual
theorem intsFit_mapFloats (r : F64 → F64) : ∀ j : Json, IntsFit (mapFloats r j) ↔ IntsFit j
  | .arr xs => by simp [mapFloats, IntsFit, intsFitList_mapFloats r xs]
  | .obj ms => by simp [mapFloats, IntsFit, intsFitMembers_mapFloats r ms]
  | .null => Iff.rfl
  | .bool _ => Iff.rfl
  | .int _ => Iff.rfl
  | .float _ => by simp [mapFloats, IntsFit]
  | .str _ => Iff.rfl
theorem intsFitList_mapFloats (r : F64 → F64) : ∀ xs : List Json, IntsFitList (mapFloatsList r xs) ↔ IntsFitList xs
  | [] => Iff.rfl
  | x :: xs => by simp [mapFloatsList, IntsFitList, intsFit_mapFloats r x, intsFitList_mapFloats r xs]
theorem intsFitMembers_mapFloats (r : F64 → F64) : ∀ ms : Members,
    IntsFitMembers (mapFloatsMembers r ms) ↔ IntsFitMembers ms
  | [] => Iff.rfl
  | (_, x) :: ms => by simp [mapFloatsMembers, IntsFitMembers, intsFit_mapFloats r x, intsFitMembers_mapFloats r ms]
end

theorem insertKV_mapFloats (r : F64 → F64) (k : String) (v : Json) (ms : Members) :
    insertKV k (mapFloats r v) (mapFloatsMembers r ms) = mapFloatsMembers r (insertKV k v ms) := by
  induction ms with
  | nil => rfl
  | cons m ms ih =>
    obtain ⟨l, w⟩ := m
    simp only [mapFloatsMembers, insertKV]
    split
    · rfl
    split
    · rfl
    · simp [mapFloatsMembers, ih]

mutual
theorem canon_mapFloats (r : F64 → F64) : ∀ j : Json, canon (mapFloats r j) = mapFloats r (canon j)
  | .arr xs => by simp only [mapFloats, canon, canonList_mapFloats r xs]
  | .obj ms => by
    have := canonMembers_mapFloats r ms []
    simp only [mapFloatsMembers] at this
    simp [mapFloats, canon, this]
  | .null => rfl
  | .bool _ => rfl
  | .int _ => rfl
  | .float _ => rfl
  | .str _ => rfl
theorem canonList_mapFloats (r : F64 → F64) : ∀ xs : List Json, canonList (mapFloatsList r xs) = mapFloatsList r (canonList xs)
  | [] => rfl
  | x :: xs => by simp only [mapFloatsList, canonList, canon_mapFloats r x, canonList_mapFloats r xs]
theorem canonMembers_mapFloats (r : F64 → F64) : ∀ ms acc : Members,
    canonMembers (mapFloatsMembers r ms) (mapFloatsMembers r acc) = mapFloatsMembers r (canonMembers ms acc)
  | [], acc => rfl
  | (k, x) :: ms, acc => by
    simp only [mapFloatsMembers, canonMembers, canon_mapFloats r x, insertKV_mapFloats]
    exact canonMembers_mapFloats r ms _
end

theorem lookup_mapFloats (r : F64 → F64) (k : String) (ms : Members) :
    (mapFloatsMembers r ms).lookup k = (ms.lookup k).map (mapFloats r) := by
  induction ms with
  | nil => rfl
  | cons m ms ih =>
    obtain ⟨l, w⟩ := m
    simp only [mapFloatsMembers, List.lookup_cons]
    cases k == l <;> simp [ih]

theorem once_mapFloats {r : F64 → F64} {k : String} {ms : Members} {v : Json} :
    Spec.Once k (mapFloatsMembers r ms) v ↔ ∃ w, Spec.Once k ms w ∧ v = mapFloats r w := by
  constructor
  · rintro ⟨a, b, e, ha, hb⟩
    rw [mapFloatsMembers_eq, List.map_eq_append_iff] at e
    obtain ⟨a', t, rfl, rfl, ht⟩ := e
    obtain ⟨⟨l, w⟩, b', rfl, hl, rfl⟩ := List.map_eq_cons_iff.1 ht
    simp only [Prod.mk.injEq] at hl
    obtain ⟨rfl, rfl⟩ := hl
    rw [← mapFloatsMembers_eq, keys_mapFloats] at ha hb
    exact ⟨w, ⟨a', b', rfl, ha, hb⟩, rfl⟩
  · rintro ⟨w, ⟨a, b, rfl, ha, hb⟩, rfl⟩
    refine ⟨mapFloatsMembers r a, mapFloatsMembers r b, ?_, ?_, ?_⟩
    · simp [mapFloatsMembers_append, mapFloatsMembers]
    · rwa [keys_mapFloats]
    · rwa [keys_mapFloats]

/-! ### Schemas -/

section
variable [Ext] (r : F64 → F64)

mutual
theorem conforms_mapFloats : ∀ (t : Ty) (j : Json), Conforms t (mapFloats r j) ↔ Conforms t j
  | .str, j => by simp [Conforms, mapFloats_eq_str]
  | .bool, j => by simp [Conforms, mapFloats_eq_bool]
  | .int lo hi, j => by simp [Conforms, mapFloats_eq_int]
  | .codes cs, j => by simp [Conforms, mapFloats_eq_int]
  | .url, j => by simp [Conforms, mapFloats_eq_str]
  | .any, j => by simp [Conforms]
  | .kind, j => by simp [Conforms]
  | .tag, j => by
    have h1 : ∀ s : String, mapFloats r j = .obj [(s, .null)] ↔ j = .obj [(s, .null)] :=
      fun s => mapFloats_eq_floatless rfl
    have h2 : ∀ s : String, mapFloats r j = .obj [("custom", .str s)] ↔ j = .obj [("custom", .str s)] :=
      fun s => mapFloats_eq_floatless rfl
    simp only [Conforms, mapFloats_eq_str, h1, h2]
  | .numOrStr, j => by simp [Conforms, mapFloats_eq_str, mapFloats_eq_int]
  | .opt t, j => by simp only [Conforms, mapFloats_eq_null, conforms_mapFloats t j]
  | .list t, j => by
    simp only [Conforms, mapFloats_eq_arr]
    constructor
    · rintro ⟨_, ⟨xs, rfl, rfl⟩, h⟩
      refine ⟨xs, rfl, fun x hx => ?_⟩
      rw [← conforms_mapFloats t x]
      exact h _ (by rw [mapFloatsList_eq]; exact List.mem_map_of_mem hx)
    · rintro ⟨xs, rfl, h⟩
      refine ⟨_, ⟨xs, rfl, rfl⟩, fun x hx => ?_⟩
      rw [mapFloatsList_eq] at hx
      obtain ⟨y, hy, rfl⟩ := List.mem_map.1 hx
      rw [conforms_mapFloats t y]
      exact h y hy
  | .struct fs, j => by
    simp only [Conforms, mapFloats_eq_arr, mapFloats_eq_obj]
    constructor
    · rintro (⟨_, ⟨ms, rfl, rfl⟩, h⟩ | ⟨_, ⟨xs, rfl, rfl⟩, h⟩)
      · exact .inl ⟨ms, rfl, (inMap_mapFloats fs ms).1 h⟩
      · exact .inr ⟨xs, rfl, (inSeq_mapFloats fs xs).1 h⟩
    · rintro (⟨ms, rfl, h⟩ | ⟨xs, rfl, h⟩)
      · exact .inl ⟨_, ⟨ms, rfl, rfl⟩, (inMap_mapFloats fs ms).2 h⟩
      · exact .inr ⟨_, ⟨xs, rfl, rfl⟩, (inSeq_mapFloats fs xs).2 h⟩
theorem inMap_mapFloats : ∀ (fs : Fields) (ms : Members), InMap fs (mapFloatsMembers r ms) ↔ InMap fs ms
  | .nil, ms => by simp [InMap]
  | .cons k a o t fs, ms => by
    simp only [InMap, keys_mapFloats, inMap_mapFloats fs ms, once_mapFloats]
    have : (∃ j, (∃ w, Spec.Once k ms w ∧ j = mapFloats r w) ∧ Conforms t j) ↔ ∃ j, Spec.Once k ms j ∧ Conforms t j := by
      constructor
      · rintro ⟨_, ⟨w, h, rfl⟩, hc⟩; exact ⟨w, h, (conforms_mapFloats t w).1 hc⟩
      · rintro ⟨w, h, hc⟩; exact ⟨_, ⟨w, h, rfl⟩, (conforms_mapFloats t w).2 hc⟩
    rw [this]
theorem inSeq_mapFloats : ∀ (fs : Fields) (xs : List Json), InSeq fs (mapFloatsList r xs) ↔ InSeq fs xs
  | .nil, xs => by cases xs <;> simp [InSeq, mapFloatsList]
  | .cons k a o t fs, [] => by
    have := inSeq_mapFloats fs []
    simp only [mapFloatsList] at this
    simp only [mapFloatsList, InSeq]
  | .cons k a o t fs, x :: xs => by simp only [mapFloatsList, InSeq, conforms_mapFloats t x, inSeq_mapFloats fs xs]
end

theorem put_mapFloats {k : String} {o : Option Json} {j : Json} (h : o.all floatless = true) :
    put k o (mapFloats r j) = mapFloatsMembers r (put k o j) := by
  unfold put
  have : o = some (mapFloats r j) ↔ o = some j := by
    cases o with
    | none => simp
    | some x =>
      simp only [Option.all_some] at h
      simp only [Option.some.injEq]
      rw [eq_comm, mapFloats_eq_floatless h, eq_comm]
  simp only [this]
  split <;> rfl

mutual
theorem clean_mapFloats : ∀ (t : Ty) (j : Json), t.tame = true → clean t (mapFloats r j) = mapFloats r (clean t j)
  | .str, j, _ => by cases j <;> simp [clean, mapFloats]
  | .bool, j, _ => by cases j <;> simp [clean, mapFloats]
  | .int lo hi, j, _ => by cases j <;> simp [clean, mapFloats]
  | .codes cs, j, _ => by cases j <;> simp [clean, mapFloats]
  | .url, j, _ => by
    cases j <;> simp [clean, mapFloats]
    split <;> simp [mapFloats]
  | .any, j, _ => by simp [clean, canon_mapFloats]
  | .kind, j, _ => by cases j <;> simp [clean, mapFloats]
  | .tag, j, _ => by
    cases j with
    | obj ms =>
      rcases ms with _ | ⟨⟨k, v⟩, _ | ⟨m, ms⟩⟩
      · simp [clean, mapFloats, mapFloatsMembers]
      · cases v <;> simp [clean, mapFloats, mapFloatsMembers]
      · obtain ⟨k', v'⟩ := m
        simp [clean, mapFloats, mapFloatsMembers]
    | _ => simp [clean, mapFloats]
  | .numOrStr, j, _ => by cases j <;> simp [clean, mapFloats]
  | .opt t, j, h => by
    simp only [Ty.tame] at h
    have := clean_mapFloats t j h
    cases j <;> simp only [mapFloats, clean] at this ⊢
    all_goals exact this
  | .list t, j, h => by
    simp only [Ty.tame] at h
    cases j with
    | arr xs =>
      simp only [mapFloats, clean, mapFloatsList_eq, List.map_map, Json.arr.injEq]
      exact List.map_congr_left fun x _ => clean_mapFloats t x h
    | _ => simp [clean, mapFloats]
  | .struct fs, j, h => by
    simp only [Ty.tame] at h
    cases j with
    | arr xs => simp only [mapFloats, clean, cleanSeq_mapFloats fs xs h]
    | obj ms => simp only [mapFloats, clean, cleanMap_mapFloats fs ms h]
    | _ => simp [clean, mapFloats]
theorem cleanMap_mapFloats : ∀ (fs : Fields) (ms : Members), fs.tame = true →
    cleanMap fs (mapFloatsMembers r ms) = mapFloatsMembers r (cleanMap fs ms)
  | .nil, ms, _ => by simp [cleanMap, mapFloatsMembers]
  | .cons k a o t fs, ms, h => by
    simp only [Fields.tame, Bool.and_eq_true] at h
    obtain ⟨h1, h2, h3, h4⟩ := h
    have e : (((ms.lookup k).map (mapFloats r)).getD a.tree) = mapFloats r ((ms.lookup k).getD a.tree) := by
      cases ms.lookup k <;> simp [mapFloats_floatless r h1]
    rw [cleanMap, cleanMap, lookup_mapFloats, e, clean_mapFloats t _ h3, put_mapFloats r h2,
      cleanMap_mapFloats fs ms h4, mapFloatsMembers_append]
theorem cleanSeq_mapFloats : ∀ (fs : Fields) (xs : List Json), fs.tame = true →
    cleanSeq fs (mapFloatsList r xs) = mapFloatsMembers r (cleanSeq fs xs)
  | .nil, xs, _ => by simp [cleanSeq, mapFloatsMembers]
  | .cons k a o t fs, xs, h => by
    simp only [Fields.tame, Bool.and_eq_true] at h
    obtain ⟨h1, h2, h3, h4⟩ := h
    have e : (mapFloatsList r xs).head?.getD a.tree = mapFloats r (xs.head?.getD a.tree) := by
      cases xs <;> simp [mapFloatsList, mapFloats_floatless r h1]
    have e' : (mapFloatsList r xs).tail = mapFloatsList r xs.tail := by cases xs <;> rfl
    rw [cleanSeq, cleanSeq, e, e', clean_mapFloats t _ h3, put_mapFloats r h2,
      cleanSeq_mapFloats fs _ h4, mapFloatsMembers_append]
end

theorem requestTable_tame : ∀ e ∈ requestTable, e.2.tame = true := by decide
theorem notificationTable_tame : ∀ e ∈ notificationTable, e.2.tame = true := by decide
theorem responseTy_tame : responseTy.tame = true := by decide

theorem paramsTy_tame {table : List (String × Ty)} (h : ∀ e ∈ table, e.2.tame = true) (m : String) :
    (paramsTy table m).tame = true := by
  unfold paramsTy
  cases hl : table.lookup m with
  | none => rfl
  | some t =>
    obtain ⟨a, b, rfl, _⟩ := List.lookup_eq_some_iff.1 hl
    exact h (m, t) (by simp)

/-! ### Messages -/

theorem requestAs_mapFloats {j o : Json} (h : RequestAs j o) : RequestAs (mapFloats r j) (mapFloats r o) := by
  obtain ⟨ms, i, m, p, rfl, h1, h2, h3, h4, h5, rfl⟩ := h
  have hi : mapFloats r i = i := by
    rcases h2 with ⟨s, rfl⟩ | ⟨n, rfl, _⟩ <;> rfl
  refine ⟨mapFloatsMembers r ms, i, m, mapFloats r p, rfl, once_mapFloats.2 ⟨i, h1, hi.symm⟩, h2,
    once_mapFloats.2 ⟨_, h3, rfl⟩, once_mapFloats.2 ⟨p, h4, rfl⟩, ?_, ?_⟩
  · rw [canon_mapFloats, conforms_mapFloats]; exact h5
  · rw [canon_mapFloats, clean_mapFloats r _ _ (paramsTy_tame requestTable_tame m), put_mapFloats r rfl]
    simp only [mapFloats, mapFloatsMembers_append, mapFloatsMembers, hi]
    split <;> rfl

theorem requestAs_of_mapFloats {j o : Json} (h : RequestAs (mapFloats r j) o) : ∃ o', RequestAs j o' := by
  obtain ⟨ns, i, m, p, h0, h1, h2, h3, h4, h5, -⟩ := h
  obtain ⟨ms, rfl, rfl⟩ := mapFloats_eq_obj.1 h0
  obtain ⟨i', h1', rfl⟩ := once_mapFloats.1 h1
  obtain ⟨m', h3', e3⟩ := once_mapFloats.1 h3
  obtain ⟨p', h4', rfl⟩ := once_mapFloats.1 h4
  rw [eq_comm, mapFloats_eq_str] at e3
  subst e3
  rw [canon_mapFloats, conforms_mapFloats] at h5
  rw [conforms_mapFloats] at h2
  exact ⟨_, ms, i', m, p', rfl, h1', h2, h3', h4', h5, rfl⟩

theorem responseAs_mapFloats {j o : Json} (h : ResponseAs j o) : ResponseAs (mapFloats r j) (mapFloats r o) := by
  obtain ⟨h1, ms, h2, rfl⟩ := h
  refine ⟨(conforms_mapFloats r _ _).2 h1, mapFloatsMembers r ms, ?_, rfl⟩
  rw [clean_mapFloats r _ _ responseTy_tame, h2]; rfl

theorem responseAs_of_mapFloats {j o : Json} (h : ResponseAs (mapFloats r j) o) : ∃ o', ResponseAs j o' := by
  obtain ⟨h1, ms, h2, -⟩ := h
  rw [clean_mapFloats r _ _ responseTy_tame] at h2
  obtain ⟨ms', h3, -⟩ := mapFloats_eq_obj.1 h2
  exact ⟨_, (conforms_mapFloats r _ _).1 h1, ms', h3, rfl⟩

theorem notificationAs_mapFloats {j o : Json} (h : NotificationAs j o) :
    NotificationAs (mapFloats r j) (mapFloats r o) := by
  obtain ⟨ms, m, rfl, h1, h⟩ := h
  refine ⟨mapFloatsMembers r ms, m, rfl, once_mapFloats.2 ⟨_, h1, rfl⟩, ?_⟩
  rcases h with ⟨p, h2, h3, rfl⟩ | ⟨h2, h3, rfl⟩
  · refine .inl ⟨mapFloats r p, once_mapFloats.2 ⟨p, h2, rfl⟩, ?_, ?_⟩
    · rw [canon_mapFloats, conforms_mapFloats]; exact h3
    · rw [canon_mapFloats, clean_mapFloats r _ _ (paramsTy_tame notificationTable_tame m)]
      simp only [mapFloats, mapFloatsMembers_append, mapFloatsMembers]
      split <;> rfl
  · exact .inr ⟨by rwa [keys_mapFloats], h3, rfl⟩

/-- Replacing the doubles of a tree commutes with reading it as a message and writing that. -/
theorem passedAs_mapFloats {j o : Json} (h : PassedAs j o) : PassedAs (mapFloats r j) (mapFloats r o) := by
  rcases h with h | ⟨h, h' | ⟨h', h''⟩⟩
  · exact .inl (requestAs_mapFloats r h)
  · exact .inr ⟨fun ⟨_, h1⟩ => h (requestAs_of_mapFloats r h1), .inl (responseAs_mapFloats r h')⟩
  · exact .inr ⟨fun ⟨_, h1⟩ => h (requestAs_of_mapFloats r h1),
      .inr ⟨fun ⟨_, h1⟩ => h' (responseAs_of_mapFloats r h1), notificationAs_mapFloats r h''⟩⟩

theorem dec_mapFloats {j : Json} {m : Message} (h : Message.dec j = some m) :
    ∃ m', Message.dec (mapFloats r j) = some m' ∧ m'.enc = mapFloats r m.enc :=
  (passed_as _ _).2 (passedAs_mapFloats r ((passed_as _ _).1 ⟨m, h, rfl⟩))

end
end Bsp
