/-
C124: what is written is as short as possible, and answers are hardly longer than the requests.
-/
import Verif.Props.AnyNumber
import Verif.Props.Blocking

namespace Bsp
open Frame Json

/-! ### Specification -/

namespace Spec
mutual
/-- The value with 0 for each of its doubles. Specification, for the values of bsp-server/src/message.rs:37, 44. -/
def zeroed : Json → Json
  | .float _ => .int 0
  | .arr xs => .arr (zeroedList xs)
  | .obj ms => .obj (zeroedMembers ms)
  | j => j
/-- The same for the elements of an array. Specification, for the values of bsp-server/src/message.rs:37, 44. -/
def zeroedList : List Json → List Json
  | [] => []
  | x :: xs => zeroed x :: zeroedList xs
/-- The same for the members of an object. Specification, for the values of bsp-server/src/message.rs:37, 44. -/
def zeroedMembers : Members → Members
  | [] => []
  | (k, x) :: ms => (k, zeroed x) :: zeroedMembers ms
end

/-- There is no double in the value. Specification, for the values of bsp-server/src/message.rs:37, 44. -/
def NoDoubles (j : Json) : Prop := zeroed j = j

end Spec

/-! ### Lengths -/

/-- How many bytes a text has. `msg.len()` of bsp-server/src/message.rs:45. -/
def bytesOf (cs : List Char) : Nat := (utf8 cs).length

theorem bytesOf_append (a b : List Char) : bytesOf (a ++ b) = bytesOf a + bytesOf b := by
  simp [bytesOf, utf8_append]

theorem bytesOf_cons (c : Char) (cs : List Char) : bytesOf (c :: cs) = c.utf8Size + bytesOf cs := by
  simp [bytesOf, utf8_cons]

theorem bytesOf_nil : bytesOf [] = 0 := rfl

theorem bytesOf_ge (cs : List Char) : cs.length ≤ bytesOf cs := by
  induction cs with
  | nil => simp
  | cons c cs ih => rw [bytesOf_cons, List.length_cons]; have := c.utf8Size_pos; omega

theorem utf8Size_one {c : Char} (h : c.toNat ≤ 127) : c.utf8Size = 1 := by
  have h1 : c.val ≤ 127 := by
    rw [UInt32.le_iff_toNat_le]; exact h
  unfold Char.utf8Size
  simp only
  split
  · rfl
  · exact absurd h1 ‹_›

theorem bytesOf_ascii {cs : List Char} (h : ∀ c ∈ cs, c.toNat ≤ 127) : bytesOf cs = cs.length := by
  induction cs with
  | nil => rfl
  | cons c cs ih =>
    rw [bytesOf_cons, List.length_cons, ih (fun x hx => h x (List.mem_cons_of_mem _ hx)), utf8Size_one (h c (by simp))]
    omega

/-! ### A string -/

theorem hex4_length {h : List Char} {n : Nat} (hh : Gram.Hex4 h n) : h.length = 4 := by cases hh; rfl

theorem escChar_plain {c : Char} (h1 : c ≠ '"') (h2 : c ≠ '\\') (h3 : 0x20 ≤ c.toNat) : Text.escChar c = [c] := by
  unfold Text.escChar
  rw [if_neg h1, if_neg h2]
  have : ∀ d : Char, d.toNat < 0x20 → c ≠ d := by rintro d hd rfl; omega
  rw [if_neg (this _ (by decide)), if_neg (this _ (by decide)), if_neg (this _ (by decide)), if_neg (this _ (by decide)),
    if_neg (this _ (by decide)), if_neg (by omega)]

theorem escChar_six (c : Char) : bytesOf (Text.escChar c) ≤ 6 := by
  by_cases h : 0x20 ≤ c.toNat ∧ c ≠ '"' ∧ c ≠ '\\'
  · rw [escChar_plain h.2.1 h.2.2 h.1, bytesOf_cons, bytesOf_nil]
    have := c.utf8Size_le_four; omega
  · unfold Text.escChar
    repeat' split
    · decide
    · decide
    · decide
    · decide
    · decide
    · decide
    · decide
    · rw [bytesOf_ascii]
      · simp
      · rename_i hc
        have hx : ∀ n, n < 16 → (Text.hexDigit n).toNat ≤ 127 := by decide
        intro x hm
        simp only [List.mem_cons, List.not_mem_nil, or_false] at hm
        rcases hm with rfl | rfl | rfl | rfl | rfl | rfl
        · decide
        · decide
        · decide
        · decide
        · exact hx _ (by omega)
        · exact hx _ (by omega)
    · rename_i h1 h2 _ _ _ _ _ h3
      exact absurd ⟨by omega, h1, h2⟩ h

/-- Every way to write a character in a string takes at least as many bytes as the way in which it is written. -/
theorem strChar_short {i : List Char} {c : Char} (h : Gram.StrChar i c) : bytesOf (Text.escChar c) ≤ bytesOf i := by
  cases h with
  | plain h1 h2 h3 => rw [escChar_plain h1 h2 h3]; exact Nat.le_refl _
  | @esc e c he =>
    have : ∀ p ∈ Gram.escapes, bytesOf (Text.escChar p.2) ≤ bytesOf ['\\', p.1] := by decide
    exact this _ he
  | @unicode h c hh =>
    have h1 := escChar_six c
    have h2 := bytesOf_ge ('\\' :: 'u' :: h)
    have h3 := hex4_length hh
    simp only [List.length_cons] at h2
    omega
  | @pair h l hi lo c hh hl _ _ _ _ _ =>
    have h1 := escChar_six c
    have h2 := bytesOf_ge ('\\' :: 'u' :: h ++ '\\' :: 'u' :: l)
    have h3 := hex4_length hh
    rw [List.cons_append, List.cons_append] at h2 ⊢
    simp only [List.length_cons, List.length_append] at h2
    omega

theorem strBody_short {b s : List Char} (h : Gram.StrBody b s) : bytesOf (s.flatMap Text.escChar) ≤ bytesOf b := by
  induction h with
  | nil => exact Nat.le_refl _
  | cons h1 _ ih =>
    rw [List.flatMap_cons, bytesOf_append, bytesOf_append]
    have := strChar_short h1; omega

theorem printStr_bytes (s : String) : bytesOf (Text.printStr s) = bytesOf (s.toList.flatMap Text.escChar) + 2 := by
  unfold Text.printStr
  rw [bytesOf_cons, bytesOf_append]
  have : bytesOf ['"'] = 1 := by decide
  have h2 : '"'.utf8Size = 1 := by decide
  omega

theorem string_short {b s : List Char} (h : Gram.StrBody b s) :
    bytesOf (Text.printStr (String.ofList s)) ≤ bytesOf b + 2 := by
  rw [printStr_bytes, String.toList_ofList]
  have := strBody_short h; omega

/-! ### A number -/

theorem digits_bytes {ds : List Char} (h : ∀ c ∈ ds, '0' ≤ c ∧ c ≤ '9') : bytesOf ds = ds.length := by
  apply bytesOf_ascii
  intro c hc
  have h1 : c.toNat ≤ 57 := (h c hc).2
  omega

theorem toDigits_bytes (n : Nat) : bytesOf (Nat.toDigits 10 n) = (Nat.toDigits 10 n).length :=
  digits_bytes (Text.toDigits_int n).1.2

theorem digits_short {ds : List Char} (h : Gram.Digits ds) :
    (Nat.toDigits 10 (Nat.ofDigitChars 10 ds 0)).length ≤ ds.length := by
  rw [Nat.length_toDigits_le_iff (by decide) (List.length_pos_iff.2 h.1)]
  have := (Double.ofDigitChars_bounds ds h.2 0).2
  simpa using this

theorem printInt_nat (n : Nat) : Text.printInt n = Nat.toDigits 10 n := by
  unfold Text.printInt
  rw [if_neg (by omega)]; simp

theorem printInt_neg (n : Nat) : bytesOf (Text.printInt (-(n : Int))) ≤ 1 + (Nat.toDigits 10 n).length := by
  unfold Text.printInt
  have e : (-(n : Int)).natAbs = n := by omega
  rw [e]
  split
  · rw [bytesOf_cons, toDigits_bytes]
    have : '-'.utf8Size = 1 := by decide
    omega
  · rw [toDigits_bytes]; omega

section
variable [FloatText]

theorem print_zero : Text.print (.int 0) = ['0'] := by rw [Text.print]; decide

theorem num_short {cs : List Char} {j : Json} (h : Gram.Num cs j) : bytesOf (Text.print (Spec.zeroed j)) ≤ bytesOf cs := by
  cases h with
  | nat h1 _ =>
    rw [Spec.zeroed, Text.print, printInt_nat, toDigits_bytes, digits_bytes h1.1.2]
    · exact digits_short h1.1
    all_goals simp
  | @neg ds h1 _ _ =>
    rw [Spec.zeroed, Text.print, bytesOf_cons, digits_bytes h1.1.2]
    · have h2 := printInt_neg (Nat.ofDigitChars 10 ds 0)
      have h3 := digits_short h1.1
      have : '-'.utf8Size = 1 := by decide
      omega
    all_goals simp
  | @float sg ds fr ex f _ h1 _ _ _ _ _ =>
    rw [Spec.zeroed, print_zero]
    have h2 := bytesOf_ge (sg ++ ds ++ fr ++ ex)
    have h3 : bytesOf ['0'] = 1 := by decide
    have h4 := List.length_pos_iff.2 h1.1.1
    simp only [List.length_append] at h2
    omega

/-! ### Any value -/

theorem scalar_short {cs : List Char} {j : Json} (h : Gram.Scalar cs j) :
    bytesOf (Text.print (Spec.zeroed j)) ≤ bytesOf cs := by
  cases h with
  | null => rw [Spec.zeroed, Text.print]; exact Nat.le_refl _; all_goals simp
  | true => rw [Spec.zeroed, Text.print]; exact Nat.le_refl _; all_goals simp
  | false => rw [Spec.zeroed, Text.print]; exact Nat.le_refl _; all_goals simp
  | num h => exact num_short h
  | @str b s h =>
    rw [Spec.zeroed, Text.print]
    · have h1 := string_short h
      have h2 : '"'.utf8Size = 1 := by decide
      have h3 : bytesOf ['"'] = 1 := by decide
      rw [List.cons_append, bytesOf_cons, bytesOf_append]
      omega
    all_goals simp

/-- What the members take, each with a comma or a brace. -/
def memberBytes (m : String × Json) : Nat := bytesOf (Text.printStr m.1) + bytesOf (Text.print m.2) + 2

theorem printMembers_bytes (m : String × Json) (ms : Members) :
    bytesOf (Text.printMembers (m :: ms)) + 1 = ((m :: ms).map memberBytes).sum := by
  have c1 : ':'.utf8Size = 1 := by decide
  have c2 : ','.utf8Size = 1 := by decide
  induction ms generalizing m with
  | nil =>
    obtain ⟨k, x⟩ := m
    simp only [Text.printMembers, bytesOf_append, bytesOf_cons, memberBytes, List.map_cons, List.map_nil, List.sum_cons,
      List.sum_nil]
    omega
  | cons m' ms ih =>
    obtain ⟨k, x⟩ := m
    have := ih m'
    rw [List.map_cons, List.sum_cons, ← this]
    simp only [Text.printMembers, bytesOf_append, bytesOf_cons, memberBytes]
    omega

theorem printElems_bytes (x : Json) (xs : List Json) :
    bytesOf (Text.printElems (x :: xs)) + 1 = ((x :: xs).map fun x => bytesOf (Text.print x) + 1).sum := by
  have c2 : ','.utf8Size = 1 := by decide
  induction xs generalizing x with
  | nil => simp [Text.printElems]
  | cons y xs ih =>
    have := ih y
    rw [List.map_cons, List.sum_cons, ← this]
    simp only [Text.printElems, bytesOf_append, bytesOf_cons]
    omega

omit [FloatText] in
theorem zeroedMembers_map (ms : Members) : Spec.zeroedMembers ms = ms.map fun m => (m.1, Spec.zeroed m.2) := by
  induction ms with
  | nil => rw [Spec.zeroedMembers]; rfl
  | cons m ms ih => obtain ⟨k, x⟩ := m; rw [Spec.zeroedMembers, ih]; rfl

omit [FloatText] in
theorem zeroedList_map (xs : List Json) : Spec.zeroedList xs = xs.map Spec.zeroed := by
  induction xs with
  | nil => rw [Spec.zeroedList]; rfl
  | cons x xs ih => rw [Spec.zeroedList, ih]; rfl

theorem elems_short {V : List Char → Json → Prop} (hV : ∀ v x, V v x → bytesOf (Text.print (Spec.zeroed x)) ≤ bytesOf v)
    {e : List Char} {xs : List Json} (h : Gram.Elems V e xs) :
    (xs.map fun x => bytesOf (Text.print (Spec.zeroed x)) + 1).sum ≤ bytesOf e + 1 ∧ xs ≠ [] := by
  have c2 : ','.utf8Size = 1 := by decide
  induction h with
  | last _ h1 _ =>
    have := hV _ _ h1
    simp only [bytesOf_append, List.map_cons, List.map_nil, List.sum_cons, List.sum_nil]
    exact ⟨by omega, by simp⟩
  | more _ h1 _ _ ih =>
    have := hV _ _ h1
    simp only [bytesOf_append, bytesOf_cons, List.map_cons, List.sum_cons]
    exact ⟨by omega, by simp⟩

theorem member_short {V : List Char → Json → Prop} (hV : ∀ v x, V v x → bytesOf (Text.print (Spec.zeroed x)) ≤ bytesOf v)
    {m : List Char} {x : String × Json} (h : Gram.Member V m x) : memberBytes (x.1, Spec.zeroed x.2) ≤ bytesOf m + 1 := by
  have c1 : ':'.utf8Size = 1 := by decide
  have c2 : '"'.utf8Size = 1 := by decide
  cases h with
  | mk _ h1 _ _ h2 _ =>
    have := hV _ _ h2
    have := string_short h1
    simp only [memberBytes, bytesOf_append, bytesOf_cons]
    omega

theorem mems_short {V : List Char → Json → Prop} (hV : ∀ v x, V v x → bytesOf (Text.print (Spec.zeroed x)) ≤ bytesOf v)
    {e : List Char} {ms : Members} (h : Gram.Mems V e ms) :
    ((ms.map fun m => (m.1, Spec.zeroed m.2)).map memberBytes).sum ≤ bytesOf e + 1 ∧ ms ≠ [] := by
  have c2 : ','.utf8Size = 1 := by decide
  induction h with
  | last h1 =>
    have := member_short hV h1
    simp only [List.map_cons, List.map_nil, List.sum_cons, List.sum_nil]
    exact ⟨by omega, by simp⟩
  | more h1 _ ih =>
    have := member_short hV h1
    simp only [bytesOf_append, bytesOf_cons, List.map_cons, List.sum_cons] at ih ⊢
    exact ⟨by omega, by simp⟩

theorem container_short {V : List Char → Json → Prop}
    (hV : ∀ v x, V v x → bytesOf (Text.print (Spec.zeroed x)) ≤ bytesOf v) {cs : List Char} {j : Json}
    (h : Gram.Container V cs j) : bytesOf (Text.print (Spec.zeroed j)) ≤ bytesOf cs := by
  have c1 : '['.utf8Size = 1 := by decide
  have c2 : bytesOf [']'] = 1 := by decide
  have c3 : '{'.utf8Size = 1 := by decide
  have c4 : bytesOf ['}'] = 1 := by decide
  cases h with
  | @arrEmpty w _ =>
    rw [Spec.zeroed, Spec.zeroedList, Text.print, Text.printElems]
    simp only [List.cons_append, bytesOf_cons, bytesOf_append, bytesOf_nil]; omega
  | @arr e xs h1 =>
    obtain ⟨h2, h3⟩ := elems_short hV h1
    rw [Spec.zeroed, zeroedList_map, Text.print]
    cases xs with
    | nil => exact absurd rfl h3
    | cons x xs =>
      have h4 := printElems_bytes (Spec.zeroed x) (xs.map Spec.zeroed)
      simp only [List.map_cons, List.map_map, Function.comp_def, List.cons_append, bytesOf_cons, bytesOf_append] at h2 h4 ⊢
      omega
  | @objEmpty w _ =>
    rw [Spec.zeroed, Spec.zeroedMembers, Text.print, Text.printMembers]
    simp only [List.cons_append, bytesOf_cons, bytesOf_append, bytesOf_nil]; omega
  | @obj e ms h1 =>
    obtain ⟨h2, h3⟩ := mems_short hV h1
    rw [Spec.zeroed, zeroedMembers_map, Text.print]
    cases ms with
    | nil => exact absurd rfl h3
    | cons x xs =>
      have h4 := printMembers_bytes (x.1, Spec.zeroed x.2) (xs.map fun m => (m.1, Spec.zeroed m.2))
      rw [List.map_cons] at h2 ⊢
      rw [← h4] at h2
      simp only [List.cons_append, bytesOf_cons, bytesOf_append]
      omega

theorem val_short : ∀ {d : Nat} {cs : List Char} {j : Json}, Gram.Val d cs j →
    bytesOf (Text.print (Spec.zeroed j)) ≤ bytesOf cs
  | 0, _, _, h => scalar_short h
  | d + 1, _, _, h => by
    rcases h with h | h
    · exact scalar_short h
    · exact container_short (fun _ _ => val_short) h

/-- C124: every text of a value has at least as many bytes as the text that is written for it, if each double is counted
as one digit. -/
theorem C124_shortest {d : Nat} {cs : List Char} {j : Json} (h : Gram.JsonText d cs j) :
    (utf8 (Text.print (Spec.zeroed j))).length ≤ (utf8 cs).length := by
  obtain ⟨w, v, w', _, h1, _, rfl⟩ := h
  have := val_short h1
  simp only [utf8_append, List.length_append]
  unfold bytesOf at this
  omega

/-- C124: so for a value without doubles nothing shorter than what is written can be read as that value. -/
theorem C124_no_doubles {d : Nat} {cs : List Char} {j : Json} (h : Gram.JsonText d cs j) (hj : Spec.NoDoubles j) :
    (utf8 (Text.print j)).length ≤ (utf8 cs).length := by
  have := C124_shortest h
  rwa [hj] at this

end

/-! ### Frames -/

theorem frame_bytes (cs : List Char) :
    (frame cs).length = 20 + (Nat.toDigits 10 (utf8 cs).length).length + (utf8 cs).length := by
  unfold frame
  rw [List.length_append, utf8_append, utf8_append, List.length_append, List.length_append]
  have h1 := toDigits_bytes (utf8 cs).length
  unfold bytesOf at h1
  have h2 : (utf8 "Content-Length: ".toList).length = 16 := by decide
  have h3 : (utf8 ['\r', '\n', '\r', '\n']).length = 4 := by decide
  omega

/-- C124: every frame of a text has at least as many bytes as the frame that is written. -/
theorem C124_frame {f : Bytes} {cs : List Char} (h : Spec.IsFrame f cs) : (frame cs).length ≤ f.length := by
  obtain ⟨hs, _, ⟨a, h, b, rfl, hn, ⟨sg, ds, hv, _, hne, hd, hN, _⟩, _⟩, rfl⟩ := h
  have h1 := digits_short ⟨hne, hd⟩
  rw [← hN] at h1
  have h2 : ds.length ≤ (utf8 h.value).length := by
    rw [hv, utf8_append, List.length_append]
    have := bytesOf_ge ds
    unfold bytesOf at this
    omega
  have h3 : (utf8 h.name).length = 14 := by rw [hn]; decide
  have h4 : (utf8 Spec.sep).length = 2 := by decide
  have h5 : (utf8 Spec.crlf).length = 2 := by decide
  have h6 : Spec.blank.length = 2 := rfl
  rw [frame_bytes]
  simp only [Spec.lines, List.flatMap_append, List.flatMap_cons, List.length_append, Spec.Header.bytes, utf8_append]
  omega

/-! ### Requests and their answers -/

section
variable [Ext] [FloatText]

/-- What the members of that name take. -/
def bytesAt (k : String) (ms : Members) : Nat := ((ms.filter (·.1 == k)).map memberBytes).sum

omit [Ext] in
theorem bytesAt_ge {k : String} {v : Json} {ms : Members} (h : (k, v) ∈ ms) : memberBytes (k, v) ≤ bytesAt k ms := by
  induction ms with
  | nil => simp at h
  | cons m ms ih =>
    unfold bytesAt at ih ⊢
    rcases List.mem_cons.1 h with rfl | h
    · simp
    · have := ih h
      rw [List.filter_cons]
      split
      · simp; omega
      · exact this

omit [Ext] in
theorem bytesAt_three {k1 k2 k3 : String} (h1 : k1 ≠ k2) (h2 : k1 ≠ k3) (h3 : k2 ≠ k3) (ms : Members) :
    bytesAt k1 ms + bytesAt k2 ms + bytesAt k3 ms ≤ (ms.map memberBytes).sum := by
  induction ms with
  | nil => simp [bytesAt]
  | cons m ms ih =>
    unfold bytesAt at ih ⊢
    simp only [List.filter_cons, List.map_cons, List.sum_cons, beq_iff_eq]
    by_cases e1 : m.1 = k1
    · rw [if_pos e1, if_neg (by rw [e1]; exact h1), if_neg (by rw [e1]; exact h2)]
      simp; omega
    · by_cases e2 : m.1 = k2
      · rw [if_neg e1, if_pos e2, if_neg (by rw [e2]; exact h3)]
        simp; omega
      · by_cases e3 : m.1 = k3
        · rw [if_neg e1, if_neg e2, if_pos e3]
          simp; omega
        · rw [if_neg e1, if_neg e2, if_neg e3]; omega

omit [Ext] in
theorem print_pos (j : Json) : 1 ≤ bytesOf (Text.print (Spec.zeroed j)) := by
  have key : ∀ j : Json, (∀ f, j ≠ .float f) → 1 ≤ (Text.print j).length := by
    intro j hj
    cases j with
    | null => simp [Text.print]
    | bool b => cases b <;> simp [Text.print]
    | int i =>
      rw [Text.print, Text.printInt]
      split
      · simp
      · exact Nat.length_toDigits_pos
    | float f => exact absurd rfl (hj f)
    | str s => simp [Text.print, Text.printStr]
    | arr xs => simp [Text.print]
    | obj ms => simp [Text.print]
  refine Nat.le_trans (key _ ?_) (bytesOf_ge _)
  cases j <;> simp [Spec.zeroed]

omit [Ext] [FloatText] in
theorem once_in {k : String} {ms : Members} {v : Json} (h : Spec.Once k ms v) : (k, v) ∈ ms := by
  obtain ⟨a, b, rfl, _, _⟩ := h; simp

omit [Ext] [FloatText] in
theorem enc_of_id {i : Json} {id : RequestId} (h : Spec.IdOf i id) : id.enc = i := by
  cases h with
  | num i h =>
    unfold RequestId.enc encI32
    simp only [Json.int.injEq]
    rw [Int32.toInt_ofInt]
    have : ((Int32.size : Nat) : Int) = 4294967296 := rfl
    exact Int.bmod_eq_of_le (by omega) (by omega)
  | str s => rfl

/-- The bytes of the id. -/
def idBytes (id : RequestId) : Nat := bytesOf (Text.print id.enc)

/-- The text of a request is by thirty bytes longer than its id. -/
theorem request_text {d : Nat} {cs : List Char} {j : Json} {r : Request} (h : Gram.JsonText d cs j)
    (hd : Message.dec j = some (.request r)) : 30 + idBytes r.id ≤ (utf8 cs).length := by
  refine Nat.le_trans ?_ (C124_shortest h)
  obtain ⟨ms, i, m, p, id, rfl, h1, h2, h3, h4, h5⟩ := (C14_request j r).1 hd
  have hid : r.id = id := by cases h5 <;> rfl
  have hz : Spec.zeroed i = i := by cases h2 <;> rw [Spec.zeroed] <;> simp
  have hm : Spec.zeroed (.str m) = .str m := by rw [Spec.zeroed]; all_goals simp
  rw [Spec.zeroed, zeroedMembers_map, Text.print]
  have mem : ∀ {k v}, (k, v) ∈ ms → (k, Spec.zeroed v) ∈ ms.map fun m => (m.1, Spec.zeroed m.2) :=
    fun hv => List.mem_map.2 ⟨_, hv, rfl⟩
  have m1 := bytesAt_ge (mem (once_in h1))
  have m2 := bytesAt_ge (mem (once_in h3))
  have m3 := bytesAt_ge (mem (once_in h4))
  have m4 := bytesAt_three (k1 := "id") (k2 := "method") (k3 := "params") (by decide) (by decide) (by decide)
    (ms.map fun m => (m.1, Spec.zeroed m.2))
  have hp := print_pos p
  have hs : 2 ≤ bytesOf (Text.print (.str m)) := by rw [Text.print, printStr_bytes]; omega
  have hi : idBytes r.id = bytesOf (Text.print i) := by rw [idBytes, hid, enc_of_id h2]
  rw [hz] at m1
  rw [hm] at m2
  have k1 : bytesOf (Text.printStr "id") = 4 := by decide
  have k2 : bytesOf (Text.printStr "method") = 8 := by decide
  have k3 : bytesOf (Text.printStr "params") = 8 := by decide
  simp only [memberBytes, k1, k2, k3] at m1 m2 m3
  cases ms with
  | nil => exact absurd (once_in h1) (by simp)
  | cons x xs =>
    have m5 := printMembers_bytes (x.1, Spec.zeroed x.2) (xs.map fun m => (m.1, Spec.zeroed m.2))
    rw [List.map_cons] at m1 m2 m3 m4 ⊢
    have c1 : '{'.utf8Size = 1 := by decide
    have c2 : bytesOf ['}'] = 1 := by decide
    have := bytesOf_cons '{' (Text.printMembers ((x.1, Spec.zeroed x.2) :: xs.map fun m => (m.1, Spec.zeroed m.2)) ++ ['}'])
    rw [bytesOf_append] at this
    rw [bytesOf] at this
    omega

/-! ### Answers -/

theorem answer_text {m : Message} {id : RequestId} {k : String} {v : Json}
    (h : m.enc = .obj [("jsonrpc", .str "2.0"), ("id", id.enc), (k, v)]) :
    bytesOf (msgText m) = 25 + idBytes id + bytesOf (Text.printStr k) + bytesOf (Text.print v) := by
  have h1 := printMembers_bytes ("jsonrpc", .str "2.0") [("id", id.enc), (k, v)]
  have c1 : '{'.utf8Size = 1 := by decide
  have c2 : bytesOf ['}'] = 1 := by decide
  have c3 : bytesOf (Text.printStr "jsonrpc") = 9 := by decide
  have c4 : bytesOf (Text.printStr "2.0") = 5 := by decide
  have c5 : bytesOf (Text.printStr "id") = 4 := by decide
  have c6 : Text.print (.str "2.0") = Text.printStr "2.0" := by rw [Text.print]
  simp only [List.map_cons, List.map_nil, List.sum_cons, List.sum_nil, memberBytes, c3, c4, c5, c6] at h1
  rw [msgText, h, Text.print, bytesOf_cons, bytesOf_append, c1, c2]
  unfold idBytes
  omega

theorem notFound_text (id : RequestId) : bytesOf (msgText (.response (.methodNotFound id ""))) = 60 + idBytes id := by
  rw [answer_text (id := id) (k := "error") (v := .obj [("code", .int (-32601)), ("message", .str "")]) rfl]
  have h1 : bytesOf (Text.printStr "error") = 7 := by decide
  have h2 : bytesOf (Text.print (.obj [("code", .int (-32601)), ("message", .str "")])) = 28 := by
    simp only [Text.print, Text.printMembers]; decide
  omega

theorem null_text (id : RequestId) :
    bytesOf (msgText (.response ⟨id, some Value.null, none⟩)) = 37 + idBytes id := by
  rw [answer_text (id := id) (k := "result") (v := .null) rfl]
  have h1 : bytesOf (Text.printStr "result") = 8 := by decide
  have h2 : bytesOf (Text.print .null) = 4 := by rw [Text.print]; decide
  omega

theorem noTargets_text (id : RequestId) : bytesOf (msgText (Conn.noTargets id)) = 47 + idBytes id := by
  rw [answer_text (id := id) (k := "result") (v := .obj [("targets", .arr [])]) rfl]
  have h1 : bytesOf (Text.printStr "result") = 8 := by decide
  have h2 : bytesOf (Text.print (.obj [("targets", .arr [])])) = 14 := by
    simp only [Text.print, Text.printMembers, Text.printElems]; decide
  omega

theorem noSources_text (id : RequestId) : bytesOf (msgText (Conn.noSources id)) = 45 + idBytes id := by
  rw [answer_text (id := id) (k := "result") (v := .obj [("items", .arr [])]) rfl]
  have h1 : bytesOf (Text.printStr "result") = 8 := by decide
  have h2 : bytesOf (Text.print (.obj [("items", .arr [])])) = 12 := by
    simp only [Text.print, Text.printMembers, Text.printElems]; decide
  omega

omit [Ext] [FloatText] in
theorem digits_next {m n : Nat} (h : m ≤ n + 30) (hn : 30 < n) :
    (Nat.toDigits 10 m).length ≤ (Nat.toDigits 10 n).length + 1 := by
  have hp : 0 < (Nat.toDigits 10 n).length := Nat.length_toDigits_pos
  have h1 := (Nat.length_toDigits_le_iff (b := 10) (n := n) (by decide) hp).1 (Nat.le_refl _)
  rw [Nat.length_toDigits_le_iff (by decide) (by omega), Nat.pow_succ]
  omega

/-- An answer whose text is by at most 60 bytes longer than the id. -/
theorem answer_short {f : Bytes} {cs : List Char} {j : Json} {r : Request} (hf : Spec.IsFrame f cs)
    (hj : Gram.JsonText 127 cs j) (hd : Message.dec j = some (.request r)) {m : Message}
    (hm : bytesOf (msgText m) ≤ 60 + idBytes r.id) : (write m).length ≤ f.length + 31 ∧ 52 ≤ f.length := by
  have h1 := request_text hj hd
  have h2 := C124_frame hf
  have hi : 1 ≤ idBytes r.id := by
    unfold idBytes
    have := print_pos r.id.enc
    have e : Spec.zeroed r.id.enc = r.id.enc := by cases r.id <;> rw [RequestId.enc] <;> rfl
    rwa [e] at this
  rw [frame_bytes] at h2
  rw [write, frame_bytes]
  unfold bytesOf at hm
  have h3 := digits_next (m := (utf8 (msgText m)).length) (n := (utf8 cs).length) (by omega) (by omega)
  have h4 : 0 < (Nat.toDigits 10 (utf8 cs).length).length := Nat.length_toDigits_pos
  omega

/-- C124: the answer of the loop to a request takes at most 31 bytes more than the request did, however that was written. -/
theorem C124_answer {f : Bytes} {cs : List Char} {j : Json} {r : Request} (hf : Spec.IsFrame f cs)
    (hj : Gram.JsonText 127 cs j) (hd : Message.dec j = some (.request r)) :
    (write (Conn.reply r)).length ≤ f.length + 31 ∧
    (write (.response ⟨r.id, some Value.null, none⟩)).length ≤ f.length + 31 ∧ 52 ≤ f.length := by
  refine ⟨(answer_short hf hj hd ?_).1, (answer_short hf hj hd ?_).1, (answer_short hf hj hd (Nat.le_of_eq (notFound_text r.id))).2⟩
  · unfold Conn.reply
    split
    · rw [noTargets_text]; simp only [Request.id]; omega
    · rw [noSources_text]; simp only [Request.id]; omega
    · rw [notFound_text]; exact Nat.le_refl _
  · rw [null_text]; omega

/-! ### The process -/

section
open Conn Session
variable [Conn.Dbg] {process : InitializeBuild → Option Value} {k : Transport.Kind}

omit [FloatText] in
/-- After the handshake only answers of the loop are sent. -/
theorem round_later {a : App} (h : a = .idle ∨ a = .leaving ∨ ∃ r, a = .ended r) (m : Message) :
    ((round process a m).1 = .idle ∨ (round process a m).1 = .leaving ∨ ∃ r, (round process a m).1 = .ended r) ∧
    ((round process a m).2 = [] ∨ ∃ r, m = .request r ∧
      ((round process a m).2 = [reply r] ∨ (round process a m).2 = [.response ⟨r.id, some Value.null, none⟩])) := by
  rcases h with rfl | rfl | ⟨r, rfl⟩
  · cases m with
    | request r => cases r <;> simp [round, onRecv, toSend, onSent, Request.id, Response.ok]
    | response r => simp [round, onRecv, toSend]
    | notification n => simp [round, onRecv, toSend]
  · have : ∃ r, onRecv process .leaving (some m) = .ended r := by
      cases m with
      | request r => exact ⟨_, rfl⟩
      | response r => exact ⟨_, rfl⟩
      | notification n => cases n <;> exact ⟨_, rfl⟩
    obtain ⟨r, hr⟩ := this
    simp [round, hr, toSend]
  · simp [round_ended]

theorem later_bytes {bs : Bytes} {ms : List Message} (hc : Spec.Carries bs ms) {a : App}
    (h : a = .idle ∨ a = .leaving ∨ ∃ r, a = .ended r) :
    ((feed process a ms).1 = .idle ∨ (feed process a ms).1 = .leaving ∨ ∃ r, (feed process a ms).1 = .ended r) ∧
    ((feed process a ms).2.flatMap write).length ≤ 2 * bs.length := by
  induction hc with
  | nil => exact ⟨h, by simp [feed]⟩
  | @snoc bs ms f cs j m _ hf _ hj hd ih =>
    obtain ⟨h1, h2⟩ := round_later (process := process) ih.1 m
    rw [feed_snoc, List.flatMap_append, List.length_append, List.length_append]
    refine ⟨h1, ?_⟩
    have : ((round process (feed process a ms).1 m).2.flatMap write).length ≤ 2 * f.length := by
      rcases h2 with h2 | ⟨r, rfl, h2⟩
      · rw [h2]; simp
      · obtain ⟨b1, b2, b3⟩ := C124_answer hf hj hd
        rcases h2 with h2 | h2 <;> rw [h2] <;> simp <;> omega
    have := ih.2
    omega

/-- C124: after the handshake the process never writes more than twice as many bytes as have arrived. -/
theorem C124_bounded {p : Proc} {as : List Session.Act} (h : Session.Steps k process {} as p) {hand later : Bytes}
    (hb : p.io.arrived = hand ++ later) {early : List Request} {id : RequestId} {ip : InitializeBuild} {v : Value}
    (hc : Spec.Carries hand (Spec.session early id ip [])) (he : ∀ r ∈ early, Spec.Early r) (hv : process ip = some v) :
    p.io.out.length ≤ ((Spec.answers process (Spec.session early id ip [])).flatMap write).length + 2 * later.length := by
  have h1 := C70_output h [] false
  rw [List.append_nil, hb, readAll_carries hc] at h1
  obtain ⟨bs, rest, h2, h3⟩ := readAll_carried later.length later false (Nat.le_refl _) [] [] .nil
  rw [List.nil_append, List.nil_append] at h3
  have h4 := (later_bytes (process := process) h3 (a := .idle) (.inl rfl)).2
  have h5 : (feed process .start (Spec.session early id ip [])).1 = .idle := by
    rw [feed_session he hv (by intro m hm; cases hm)]
  simp only at h1
  rw [answers_eq, feed_append, h5, List.flatMap_append] at h1
  have h6 := h1.length_le
  rw [List.length_append] at h6
  rw [answers_eq]
  have h7 : bs.length ≤ later.length := by rw [h2]; simp
  omega

end
end

/-! ### Concrete cases -/

section
attribute [local instance] Ext.sample FloatText.sample Dbg.sample

/-- A text with white space and escapes, and its value. -/
def looseText : List Char := " { \"\\u0061\\/\" : [ 12 , \"\\ud83d\\ude00\" ] , \"\\u0001\":null } ".toList

theorem looseText_ok : Gram.JsonText 127 looseText
    (.obj [("a/", .arr [.int 12, .str "😀"]), ("\x01", .null)]) := Text.parse_iff.1 (by decide +kernel)

/-- Beside C124: 58 bytes instead of 32. -/
example : bytesOf looseText = 58 ∧
    bytesOf (Text.print (.obj [("a/", .arr [.int 12, .str "😀"]), ("\x01", .null)])) = 32 ∧
    (utf8 (Text.print (.obj [("a/", .arr [.int 12, .str "😀"]), ("\x01", .null)]))).length ≤ (utf8 looseText).length ∧
    (utf8 (Text.print (Spec.zeroed (.obj [("a/", .arr [.int 12, .str "😀"]), ("\x01", .null)])))).length ≤
      (utf8 looseText).length :=
  ⟨by decide +kernel, by decide +kernel, C124_no_doubles looseText_ok rfl, C124_shortest looseText_ok⟩

/-- The shortest request, and one with an id of 42 bytes. -/
def shortRequest (id : Json) : Json := .obj [("id", id), ("method", .str ""), ("params", .int 0)]

theorem shortRequest_dec : Message.dec (shortRequest (.int 7)) = some (.request (.custom (.i32 7) "" (.ofJson (.int 0)))) ∧
    Message.dec (shortRequest (.str "0123456789012345678901234567890123456789")) =
      some (.request (.custom (.str "0123456789012345678901234567890123456789") "" (.ofJson (.int 0)))) := by
  constructor <;> rfl

theorem shortRequest_frame {id : Json} (h : Spec.nest (shortRequest id) ≤ 127) (hn : Spec.Numbers (shortRequest id))
    (hl : (utf8 (Text.print (shortRequest id))).length ≤ 2 ^ 63 - 1) :
    Spec.IsFrame (frame (Text.print (shortRequest id))) (Text.print (shortRequest id)) ∧
    Gram.JsonText 127 (Text.print (shortRequest id)) (shortRequest id) := by
  refine ⟨?_, Text.parse_iff.1 (Text.parse_print h hn)⟩
  have := C01_frame (Text.print (shortRequest id)) hl [] false
  rw [List.append_nil] at this
  obtain ⟨_, _, f, h1, h2⟩ := (C08_exactly_one_frame ..).1 this
  rw [List.append_nil] at h2
  have h3 : frame (Text.print (shortRequest id)) = f := h2
  rw [h3]; exact h1

/-- Beside C124: the answer to the shortest request takes 30 bytes more, the answer to the other one 31, which is the
most that C124 allows. -/
example : (write (Conn.reply (.custom (.i32 7) "" (.ofJson (.int 0))))).length ≤
      (frame (Text.print (shortRequest (.int 7)))).length + 31 ∧
    (frame (Text.print (shortRequest (.int 7)))).length = 53 ∧
    (write (Conn.reply (.custom (.i32 7) "" (.ofJson (.int 0))))).length = 83 ∧
    (write (Conn.reply (.custom (.str "0123456789012345678901234567890123456789") "" (.ofJson (.int 0))))).length =
      (frame (Text.print (shortRequest (.str "0123456789012345678901234567890123456789")))).length + 31 := by
  obtain ⟨h1, h2⟩ := shortRequest_frame (id := .int 7) (by decide)
    (by simp [shortRequest, Spec.Numbers, Spec.NumbersMembers]) (by decide)
  exact ⟨(C124_answer h1 h2 shortRequest_dec.1).1, by decide +kernel, by decide +kernel, by decide +kernel⟩

/-- Beside C124: white space and a header line more. -/
example : Spec.IsFrame (utf8 "A: b\r\nContent-Length: +007\r\n\r\n {} \n  ".toList) " {} \n  ".toList ∧
    (frame " {} \n  ".toList).length ≤ (utf8 "A: b\r\nContent-Length: +007\r\n\r\n {} \n  ".toList).length ∧
    (frame " {} \n  ".toList).length + 9 = (utf8 "A: b\r\nContent-Length: +007\r\n\r\n {} \n  ".toList).length := by
  have h : Spec.IsFrame (utf8 "A: b\r\nContent-Length: +007\r\n\r\n {} \n  ".toList) " {} \n  ".toList := by
    have : readText (⟨utf8 "A: b\r\nContent-Length: +007\r\n\r\n {} \n  ".toList, false⟩ : Flat) =
        .item " {} \n  ".toList ⟨[], false⟩ := by decide +kernel
    obtain ⟨_, _, f, h1, h2⟩ := (C08_exactly_one_frame ..).1 this
    rw [List.append_nil] at h2
    rw [h2]; exact h1
  exact ⟨h, C124_frame h, by decide +kernel⟩

/-- Beside C124: the sample conversation. -/
example (k : Transport.Kind) : ∃ as p, Session.Steps k sampleHandler {} as p ∧ p.exit = some true ∧
    p.io.out.length ≤ ((Spec.answers sampleHandler (Spec.session [.workspaceReload (.str "a")] (.i32 1) sampleInit
      [])).flatMap write).length + 2 * (framed (sampleTalk.drop 3 ++ sampleLeave)).length := by
  have hc : Spec.Carries (framed (sampleTalk.take 3)) (Spec.session [.workspaceReload (.str "a")] (.i32 1) sampleInit []) :=
    carries_framed fun x hx => sampleTalk_ok x (List.mem_append_left _ (List.mem_of_mem_take hx))
  have ha : framed (sampleTalk ++ sampleLeave) = framed (sampleTalk.take 3) ++ framed (sampleTalk.drop 3 ++ sampleLeave) := by
    unfold framed
    rw [← List.flatMap_append, ← List.append_assoc, List.take_append_drop]
  obtain ⟨as, q, h1, hp, h2, _⟩ := C73_reached (id := .i32 1) (sid := .i32 3) (ip := sampleInit)
    (v := .ofJson (.str "c")) (early := [.workspaceReload (.str "a")])
    (pre := [.request (.workspaceBuildTargets (.i32 2)), .notification .initialized]) (rest := [])
    (step_arrive k sampleHandler (framed (sampleTalk ++ sampleLeave))) (by simp) (by simp) (by simp)
    sampleTalk_carries.2 (by simp [Spec.Early]) rfl (by simp [Spec.NoShutdown]) (by simp)
  have h3 := steps_arrived h1 hp
  exact ⟨_, q, steps_append (step_arrive ..) h1, h2, C124_bounded (steps_append (step_arrive ..) h1)
    (by rw [h3.1]; exact ha) hc (by simp [Spec.Early]) (by rfl)⟩

end
end Bsp
