/-
The compact printer produces JSON texts of exactly the value printed; nesting depth.
-/
import Verif.JsonGrammar

namespace Bsp

/-! ### Nesting depth and printable values (specification) -/

namespace Spec

mutual
/-- How deep arrays and objects nest.
Specification about the texts of bsp-server/src/message.rs:44. -/
def nest : Json → Nat
  | .arr xs => nestList xs + 1
  | .obj ms => nestMembers ms + 1
  | _ => 0
/-- Largest nesting among the elements.
Specification about the texts of bsp-server/src/message.rs:44. -/
def nestList : List Json → Nat
  | [] => 0
  | x :: xs => max (nest x) (nestList xs)
/-- Largest nesting among the members.
Specification about the texts of bsp-server/src/message.rs:44. -/
def nestMembers : Members → Nat
  | [] => 0
  | (_, x) :: ms => max (nest x) (nestMembers ms)
end

/-- A double whose text form is a number literal that denotes it: what `ryu` and the parser of
serde_json are assumed to do for the doubles that occur.
Specification about the texts of bsp-server/src/message.rs:44. -/
def FloatOk [FloatText] (f : F64) : Prop := Gram.Num (FloatText.print f) (.float f)

mutual
/-- The integers fit `u64` or `i64` (as they do in serde_json), and the doubles are printed and
parsed faithfully. Specification about the texts of bsp-server/src/message.rs:44. -/
def Numbers [FloatText] : Json → Prop
  | .int i => -2 ^ 63 ≤ i ∧ i < 2 ^ 64
  | .float f => FloatOk f
  | .arr xs => NumbersList xs
  | .obj ms => NumbersMembers ms
  | _ => True
/-- All elements satisfy `Numbers`.
Specification about the texts of bsp-server/src/message.rs:44. -/
def NumbersList [FloatText] : List Json → Prop
  | [] => True
  | x :: xs => Numbers x ∧ NumbersList xs
/-- All members satisfy `Numbers`. Specification about the texts of bsp-server/src/message.rs:44. -/
def NumbersMembers [FloatText] : Members → Prop
  | [] => True
  | (_, x) :: ms => Numbers x ∧ NumbersMembers ms
end

end Spec

set_option linter.unusedSectionVars false

namespace Text
open Gram Spec

/-! ### Strings -/

theorem toNat_inj {c d : Char} (h : c.toNat = d.toNat) : c = d := by
  rw [char_of_toNat h, ofNat_toNat]

theorem escChar_spec (c : Char) : StrChar (escChar c) c := by
  unfold escChar
  split
  · rename_i h; subst h; exact .esc (by decide)
  split
  · rename_i h; subst h; exact .esc (by decide)
  split
  · rename_i h; subst h; exact .esc (by decide)
  split
  · rename_i h; subst h; exact .esc (by decide)
  split
  · rename_i h; subst h; exact .esc (by decide)
  split
  · rename_i h; subst h; exact .esc (by decide)
  split
  · rename_i h; subst h; exact .esc (by decide)
  split
  · rename_i h
    refine .unicode ?_
    have key : ∀ n < 32, Hex4 ['0', '0', hexDigit (n / 16), hexDigit (n % 16)] n := by
      intro n hn
      have h1 : (hexDigit (n / 16), n / 16) ∈ hexDigits ∧ (hexDigit (n % 16), n % 16) ∈ hexDigits := by
        revert n; decide
      have := Hex4.mk (show ('0', 0) ∈ hexDigits by decide) (show ('0', 0) ∈ hexDigits by decide)
        h1.1 h1.2
      have e : 0 * 4096 + 0 * 256 + n / 16 * 16 + n % 16 = n := by omega
      rw [e] at this; exact this
    exact key _ h
  · rename_i h1 h2 _ _ _ _ _ h3
    exact .plain h1 h2 (by omega)

theorem escBody (s : List Char) : StrBody (s.flatMap escChar) s := by
  induction s with
  | nil => exact .nil
  | cons c s ih => rw [List.flatMap_cons]; exact .cons (escChar_spec c) ih

theorem printStr_spec [FloatText] (s : String) : Scalar (printStr s) (.str s) := by
  have := Scalar.str (escBody s.toList)
  rw [String.ofList_toList] at this
  simpa [printStr] using this

/-! ### Integers -/

theorem char_isDigit {c : Char} (h : c.isDigit = true) : '0' ≤ c ∧ c ≤ '9' := by
  simp only [Char.isDigit, ge_iff_le, Bool.and_eq_true, decide_eq_true_eq] at h
  exact h

theorem toDigits_head (n : Nat) : ∀ r, Nat.toDigits 10 n = '0' :: r → r = [] := by
  induction n using Nat.strongRecOn with
  | _ n ih =>
    intro r h
    by_cases hn : n < 10
    · rw [Nat.toDigits_of_lt_base hn] at h
      simp only [List.cons.injEq] at h
      exact h.2.symm
    · rw [Nat.toDigits_of_base_le (by omega) (by omega)] at h
      have hne := Nat.toDigits_ne_nil (b := 10) (n := n / 10)
      cases hd : Nat.toDigits 10 (n / 10) with
      | nil => exact absurd hd hne
      | cons c t =>
        rw [hd] at h
        simp only [List.cons_append, List.cons.injEq] at h
        obtain ⟨rfl, rfl⟩ := h
        have := ih (n / 10) (by omega) t hd
        subst this
        -- then n / 10 = 0
        have e := Nat.ofDigitChars_ten_toDigits (n := n / 10)
        rw [hd] at e
        have : Nat.ofDigitChars 10 ['0'] 0 = 0 := by decide
        omega

theorem toDigits_int (n : Nat) : IntPart (Nat.toDigits 10 n) :=
  ⟨⟨Nat.toDigits_ne_nil, fun _ hc => char_isDigit (Nat.isDigit_of_mem_toDigits (by omega) (by omega) hc)⟩,
    toDigits_head n⟩

theorem printInt_spec [FloatText] {i : Int} (h1 : -2 ^ 63 ≤ i) (h2 : i < 2 ^ 64) :
    Num (printInt i) (.int i) := by
  unfold printInt
  split
  · have := Num.neg (toDigits_int i.natAbs)
      (by rw [Nat.ofDigitChars_ten_toDigits]; omega) (by rw [Nat.ofDigitChars_ten_toDigits]; omega)
    rw [Nat.ofDigitChars_ten_toDigits] at this
    have e : -((i.natAbs : Nat) : Int) = i := by omega
    rw [e] at this; exact this
  · have := Num.nat (toDigits_int i.natAbs) (by rw [Nat.ofDigitChars_ten_toDigits]; omega)
    rw [Nat.ofDigitChars_ten_toDigits] at this
    have e : ((i.natAbs : Nat) : Int) = i := by omega
    rw [e] at this; exact this

/-! ### Values -/

section
variable [FloatText]

theorem printElems_spec {V : List Char → Json → Prop} :
    ∀ (xs : List Json), xs ≠ [] → (∀ x ∈ xs, V (print x) x) → Elems V (printElems xs) xs
  | [], h, _ => absurd rfl h
  | [x], _, h => by
    have := Elems.last ws_nil (h x (by simp)) ws_nil
    simpa [printElems] using this
  | x :: y :: xs, _, h => by
    have := Elems.more ws_nil (h x (by simp)) ws_nil
      (printElems_spec (y :: xs) (by simp) (fun z hz => h z (List.mem_cons_of_mem _ hz)))
    simpa [printElems] using this

theorem printMember_spec {V : List Char → Json → Prop} {k : String} {x : Json} (h : V (print x) x) :
    Member V (printStr k ++ ':' :: print x) (k, x) := by
  have := Member.mk ws_nil (escBody k.toList) ws_nil ws_nil h ws_nil
  rw [String.ofList_toList] at this
  simpa [printStr] using this

theorem printMembers_spec {V : List Char → Json → Prop} :
    ∀ (ms : Members), ms ≠ [] → (∀ m ∈ ms, V (print m.2) m.2) → Mems V (printMembers ms) ms
  | [], h, _ => absurd rfl h
  | [(k, x)], _, h => by
    simpa [printMembers] using Mems.last (printMember_spec (h (k, x) (by simp)))
  | (k, x) :: m :: ms, _, h => by
    have := Mems.more (printMember_spec (k := k) (h (k, x) (by simp)))
      (printMembers_spec (m :: ms) (by simp) (fun z hz => h z (List.mem_cons_of_mem _ hz)))
    simpa [printMembers] using this

theorem numbersList_mem : ∀ {xs : List Json}, NumbersList xs → ∀ x ∈ xs, Numbers x
  | [], _, x, hx => by simp at hx
  | y :: ys, h, x, hx => by
    simp only [NumbersList] at h
    rcases List.mem_cons.1 hx with rfl | hx
    · exact h.1
    · exact numbersList_mem h.2 x hx

theorem numbersMembers_mem : ∀ {ms : Members}, NumbersMembers ms → ∀ m ∈ ms, Numbers m.2
  | [], _, x, hx => by simp at hx
  | (k, y) :: ys, h, x, hx => by
    simp only [NumbersMembers] at h
    rcases List.mem_cons.1 hx with rfl | hx
    · exact h.1
    · exact numbersMembers_mem h.2 x hx

theorem nestList_mem : ∀ {xs : List Json} {x}, x ∈ xs → nest x ≤ nestList xs
  | [], x, hx => by simp at hx
  | y :: ys, x, hx => by
    simp only [nestList]
    rcases List.mem_cons.1 hx with rfl | hx
    · omega
    · have := nestList_mem hx; omega

theorem nestMembers_mem : ∀ {ms : Members} {m}, m ∈ ms → nest m.2 ≤ nestMembers ms
  | [], x, hx => by simp at hx
  | (k, y) :: ys, x, hx => by
    simp only [nestMembers]
    rcases List.mem_cons.1 hx with rfl | hx
    · simp only; omega
    · have := nestMembers_mem hx; omega

theorem nestList_le : ∀ {xs : List Json} {d}, (∀ x ∈ xs, nest x ≤ d) → nestList xs ≤ d
  | [], d, h => by simp [nestList]
  | y :: ys, d, h => by
    have h1 := h y (by simp)
    have := nestList_le (xs := ys) (fun x hx => h x (List.mem_cons_of_mem _ hx))
    simp only [nestList]; omega

theorem nestMembers_le : ∀ {ms : Members} {d}, (∀ m ∈ ms, nest m.2 ≤ d) → nestMembers ms ≤ d
  | [], d, h => by simp [nestMembers]
  | (k, y) :: ys, d, h => by
    have h1 : nest y ≤ d := h (k, y) (by simp)
    have := nestMembers_le (ms := ys) (fun x hx => h x (List.mem_cons_of_mem _ hx))
    simp only [nestMembers]; omega

/-- The printed text denotes the value. -/
theorem print_spec : ∀ (d : Nat) (j : Json), nest j ≤ d → Numbers j → Val d (print j) j := by
  intro d
  induction d with
  | zero =>
    intro j hd hn
    cases j with
    | null => simp only [print]; exact .null
    | bool b =>
      cases b <;> simp only [print]
      · exact .false
      · exact .true
    | int i => simp only [print, Numbers] at *; exact .num (printInt_spec hn.1 hn.2)
    | float f => simp only [print, Numbers] at *; exact .num hn
    | str s => simp only [print]; exact printStr_spec s
    | arr xs => simp [nest] at hd
    | obj ms => simp [nest] at hd
  | succ d ih =>
    intro j hd hn
    cases j with
    | null => simp only [print]; exact .inl .null
    | bool b =>
      cases b <;> simp only [print]
      · exact .inl .false
      · exact .inl .true
    | int i => simp only [print, Numbers] at *; exact .inl (.num (printInt_spec hn.1 hn.2))
    | float f => simp only [print, Numbers] at *; exact .inl (.num hn)
    | str s => simp only [print]; exact .inl (printStr_spec s)
    | arr xs =>
      simp only [nest, Numbers, print] at *
      right
      by_cases hx : xs = []
      · subst hx; exact .arrEmpty ws_nil
      · refine .arr (printElems_spec xs hx fun x hm => ih x ?_ (numbersList_mem hn x hm))
        have := nestList_mem hm; omega
    | obj ms =>
      simp only [nest, Numbers, print] at *
      right
      by_cases hx : ms = []
      · subst hx; exact .objEmpty ws_nil
      · refine .obj (printMembers_spec ms hx fun x hm => ih x.2 ?_ (numbersMembers_mem hn x hm))
        have := nestMembers_mem hm; omega

theorem elems_mono {V W : List Char → Json → Prop} (h : ∀ {v j}, V v j → W v j) {e xs}
    (he : Elems V e xs) : Elems W e xs := by
  induction he with
  | last a b c => exact .last a (h b) c
  | more a b c _ ih => exact .more a (h b) c ih

theorem mems_mono {V W : List Char → Json → Prop} (h : ∀ {v j}, V v j → W v j) {e xs}
    (he : Mems V e xs) : Mems W e xs := by
  have hm : ∀ {m x}, Member V m x → Member W m x := by
    intro m x hm
    cases hm with | mk a b c d e f => exact .mk a b c d (h e) f
  induction he with
  | last a => exact .last (hm a)
  | more a _ ih => exact .more (hm a) ih

theorem val_succ : ∀ {d : Nat} {v j}, Val d v j → Val (d + 1) v j
  | 0, _, _, h => .inl h
  | d + 1, v, j, h => by
    rcases h with h | h
    · exact .inl h
    · right
      cases h with
      | arrEmpty h => exact .arrEmpty h
      | arr h => exact .arr (elems_mono val_succ h)
      | objEmpty h => exact .objEmpty h
      | obj h => exact .obj (mems_mono val_succ h)

theorem val_mono {d e : Nat} (h : d ≤ e) {v j} (hv : Val d v j) : Val e v j := by
  induction h with
  | refl => exact hv
  | step _ ih => exact val_succ ih

theorem jsonText_mono {d e : Nat} (h : d ≤ e) {cs j} : JsonText d cs j → JsonText e cs j := by
  rintro ⟨w, v, w', hw, hv, hw', rfl⟩
  exact ⟨w, v, w', hw, val_mono h hv, hw', rfl⟩

/-- A text denotes at most one value. -/
theorem jsonText_unique {d e : Nat} {cs j k} (h1 : JsonText d cs j) (h2 : JsonText e cs k) :
    j = k := by
  have h1 := jsonText_mono (Nat.le_max_left d e) h1
  have h2 := jsonText_mono (Nat.le_max_right d e) h2
  have key : ∀ {j}, JsonText (max d e) cs j → ∃ r, Ws r ∧ parseValue (max d e) cs = some (j, r) := by
    rintro j ⟨w, v, w', hw, hv, hw', rfl⟩
    refine ⟨w', hw', (parseValue_complete _).complete hw hv ?_⟩
    have := follow_ws hw' (r := []) (by intro c t e; cases e)
    simpa using this
  obtain ⟨_, _, e1⟩ := key h1
  obtain ⟨_, _, e2⟩ := key h2
  rw [e1] at e2
  simpa using congrArg (Option.map Prod.fst) e2

theorem elems_mem {V : List Char → Json → Prop} {e xs} (he : Elems V e xs) :
    ∀ x ∈ xs, ∃ v, V v x := by
  induction he with
  | last a b c => intro x hx; simp at hx; subst hx; exact ⟨_, b⟩
  | more a b c _ ih =>
    intro x hx
    rcases List.mem_cons.1 hx with rfl | hx
    · exact ⟨_, b⟩
    · exact ih x hx

theorem mems_mem {V : List Char → Json → Prop} {e xs} (he : Mems V e xs) :
    ∀ x ∈ xs, ∃ v, V v x.2 := by
  induction he with
  | last a =>
    intro x hx; simp at hx; subst hx
    cases a with | mk a b c d e f => exact ⟨_, e⟩
  | more a _ ih =>
    intro x hx
    rcases List.mem_cons.1 hx with rfl | hx
    · cases a with | mk a b c d e f => exact ⟨_, e⟩
    · exact ih x hx

theorem scalar_nest {v j} (h : Scalar v j) : nest j = 0 := by
  cases h with
  | num h => cases h <;> simp [nest]
  | _ => simp [nest]

theorem val_nest : ∀ {d : Nat} {v j}, Val d v j → nest j ≤ d
  | 0, _, _, h => by rw [scalar_nest h]; omega
  | d + 1, _, _, h => by
    rcases h with h | h
    · rw [scalar_nest h]; omega
    · cases h with
      | arrEmpty _ => simp [nest, nestList]
      | arr h =>
        simp only [nest]
        have : nestList _ ≤ d := nestList_le fun x hx => by
          obtain ⟨v, hv⟩ := elems_mem h x hx
          exact val_nest hv
        omega
      | objEmpty _ => simp [nest, nestMembers]
      | obj h =>
        simp only [nest]
        have : nestMembers _ ≤ d := nestMembers_le fun x hx => by
          obtain ⟨v, hv⟩ := mems_mem h x hx
          exact val_nest hv
        omega

theorem parse_print {j : Json} (hd : nest j ≤ 127) (hn : Numbers j) : parse (print j) = some j :=
  parse_iff.2 ⟨[], print j, [], ws_nil, print_spec 127 j hd hn, ws_nil, by simp⟩

theorem parse_print_deep {j : Json} (hd : 128 ≤ nest j) (hn : Numbers j) :
    parse (print j) = none := by
  cases h : parse (print j) with
  | none => rfl
  | some k =>
    have h1 := parse_iff.1 h
    have h2 : JsonText (nest j) (print j) j :=
      ⟨[], print j, [], ws_nil, print_spec _ j (Nat.le_refl _) hn, ws_nil, by simp⟩
    have := jsonText_unique h1 h2
    subst this
    obtain ⟨_, _, _, _, hv, _, _⟩ := h1
    have := val_nest hv
    omega

end
end Text
end Bsp
