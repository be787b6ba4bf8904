/-
The doubles in messages: what is written for them, how it is read back (C101-C104).
The statements about the whole wire are at the end.
-/
import Verif.DoubleLemmas
import Verif.Props.Wire

namespace Bsp

/-! ### Specification -/

namespace Spec
open Gram

/-- A fraction in a number literal and its digits.
Specification about the texts of bsp-server/src/message.rs:37, 44. -/
inductive FracText : List Char → List Char → Prop
  | none : FracText [] []
  | some {ds} : Digits ds → FracText ('.' :: ds) ds

/-- An exponent in a number literal and its value.
Specification about the texts of bsp-server/src/message.rs:37, 44. -/
inductive ExpText : List Char → Int → Prop
  | none : ExpText [] 0
  | plain {c ds} : c = 'e' ∨ c = 'E' → Digits ds → ExpText (c :: ds) (Nat.ofDigitChars 10 ds 0)
  | plus {c ds} : c = 'e' ∨ c = 'E' → Digits ds → ExpText (c :: '+' :: ds) (Nat.ofDigitChars 10 ds 0)
  | minus {c ds} : c = 'e' ∨ c = 'E' → Digits ds → ExpText (c :: '-' :: ds) (-(Nat.ofDigitChars 10 ds 0 : Int))

/-- The text is a JSON number literal that denotes `± s * 10 ^ e`, `s` being all its digits, without the
point.  Specification about the texts of bsp-server/src/message.rs:37, 44. -/
def Literal (cs : List Char) (neg : Bool) (s : Nat) (e : Int) : Prop :=
  ∃ ds ft fr et x, IntPart ds ∧ FracText ft fr ∧ ExpText et x ∧
    cs = (if neg then ['-'] else []) ++ ds ++ ft ++ et ∧
    s = Nat.ofDigitChars 10 (ds ++ fr) 0 ∧ e = x - fr.length

/-- Number of decimal digits. Specification about the texts of bsp-server/src/message.rs:44. -/
def digitCount (d : Nat) : Nat := (Nat.toDigits 10 d).length

/-- The same number written in two ways. Specification about the texts of bsp-server/src/message.rs:37, 44. -/
def SameNumber (s : Nat) (e : Int) (s' : Nat) (e' : Int) : Prop :=
  s * 10 ^ e.toNat * 10 ^ (-e').toNat = s' * 10 ^ e'.toNat * 10 ^ (-e).toNat

end Spec

namespace Double
open Spec Gram

/-! ### Decimals, two ways -/

theorem unit_pos : 0 < unit := by unfold unit; exact Nat.two_pow_pos _

theorem unit_fives : unit * fives = 10 ^ 1074 := by
  unfold unit fives; rw [← Nat.mul_pow]

theorem nearestDec_of_inside {n d i : Nat} (h : Inside n d i) : NearestDec n d ((i : Int) - 1074) := by
  have hp : ∀ j, 0 < 10 ^ j := fun j => Nat.pow_pos (by decide)
  refine (Near.congr h five_pos (hp _) ?_).nearest (hp _)
  have e1 : ((i : Int) - 1074).toNat = i - 1074 := by omega
  have e2 : (-((i : Int) - 1074)).toNat = 1074 - i := by omega
  rw [e1, e2, Nat.mul_assoc (d * _), unit_fives, Nat.mul_assoc, Nat.mul_assoc, ← Nat.pow_add, ← Nat.pow_add,
    show i + (1074 - i) = i - 1074 + 1074 by omega]

theorem inside_of_nearestDec {n d : Nat} {k : Int} (hk : -1074 ≤ k) (h : NearestDec n d k) :
    Inside n d (k + 1074).toNat := by
  have hp : ∀ j, 0 < 10 ^ j := fun j => Nat.pow_pos (by decide)
  refine Near.congr (Near.of_nearest h (hp _)) (hp _) five_pos ?_
  rw [Nat.mul_assoc (d * _), unit_fives, Nat.mul_assoc, Nat.mul_assoc, ← Nat.pow_add, ← Nat.pow_add,
    show (k + 1074).toNat + (-k).toNat = k.toNat + 1074 by omega]

theorem nearestDec_unique {n n' s : Nat} {e : Int} (h : NearestDec n s e) (h' : NearestDec n' s e) : n = n' :=
  have hp : 0 < 10 ^ (-e).toNat := Nat.pow_pos (by decide)
  (Near.of_nearest h hp).unique (Near.of_nearest h' hp) hp

theorem nearestDec_congr {n s s' : Nat} {e e' : Int} (h : NearestDec n s e) (hs : SameNumber s e s' e') :
    NearestDec n s' e' := by
  have hp : ∀ j, 0 < 10 ^ j := fun j => Nat.pow_pos (by decide)
  refine (Near.congr (Near.of_nearest h (hp _)) (hp _) (hp _) ?_).nearest (hp _)
  unfold SameNumber at hs
  rw [Nat.mul_right_comm, hs, Nat.mul_right_comm]

theorem sameNumber_shift (s : Nat) (e : Int) (j : Nat) : SameNumber s e (s * 10 ^ j) (e - j) := by
  unfold SameNumber
  rw [Nat.mul_assoc, Nat.mul_assoc, Nat.mul_assoc, ← Nat.pow_add, ← Nat.pow_add, ← Nat.pow_add,
    show e.toNat + (-(e - (j : Int))).toNat = j + ((e - (j : Int)).toNat + (-e).toNat) by omega]

/-! ### What the printer lays out -/

theorem toDigits_pos_head {d : Nat} (hd : 0 < d) : ∀ r, Nat.toDigits 10 d ≠ '0' :: r := by
  intro r h
  have := Text.toDigits_head d r h
  subst this
  have e := Nat.ofDigitChars_ten_toDigits (n := d)
  rw [h] at e
  have : Nat.ofDigitChars 10 ['0'] 0 = 0 := by decide
  omega

theorem digits_toDigits (d : Nat) : Digits (Nat.toDigits 10 d) := (Text.toDigits_int d).1

theorem digits_sub {l l' : List Char} (h : Digits l) (hne : l' ≠ []) (hs : ∀ c ∈ l', c ∈ l) : Digits l' :=
  ⟨hne, fun c hc => h.2 c (hs c hc)⟩

theorem expText_printExp (c : Char) (hc : c = 'e' ∨ c = 'E') (e : Int) : ExpText (c :: printExp e) e := by
  unfold printExp Text.printInt
  have hd := digits_toDigits e.natAbs
  have hv := Nat.ofDigitChars_ten_toDigits (n := e.natAbs)
  split
  · have := ExpText.minus hc hd
    rwa [hv, show -((e.natAbs : Nat) : Int) = e by omega] at this
  · have := ExpText.plain hc hd
    rwa [hv, show ((e.natAbs : Nat) : Int) = e by omega] at this

/-- Which literal the layout is. -/
theorem layout_parts {d : Nat} (hd : 0 < d) (k : Int) :
    (0 ≤ k ∧ (digitCount d : Int) + k ≤ 16 → Literal (layout d k) false (d * 10 ^ (k.toNat + 1)) (-1)) ∧
    (¬ (0 ≤ k ∧ (digitCount d : Int) + k ≤ 16) → Literal (layout d k) false d k) ∧
    (('.' ∈ layout d k) ∨ ('e' ∈ layout d k)) := by
  have hD := digits_toDigits d
  have hv := Nat.ofDigitChars_ten_toDigits (n := d)
  have hz := toDigits_pos_head hd
  unfold layout digitCount
  generalize Nat.toDigits 10 d = ds at *
  simp only
  obtain ⟨hne, hdig⟩ := hD
  have hlen : 0 < ds.length := List.length_pos_iff.mpr hne
  split
  · rename_i hc
    refine ⟨fun _ => ?_, fun h => absurd hc h, .inl (by simp)⟩
    refine ⟨ds ++ List.replicate k.toNat '0', ['.', '0'], ['0'], [], 0, ⟨⟨by simp [hne], ?_⟩, ?_⟩,
      .some ⟨by simp, by decide⟩, .none, by simp, ?_, by simp⟩
    · intro c hc
      rcases List.mem_append.mp hc with h | h
      · exact hdig c h
      · have := List.eq_of_mem_replicate h; subst this; decide
    · intro r hr
      cases ds with
      | nil => exact absurd rfl hne
      | cons a t =>
        simp only [List.cons_append, List.cons.injEq] at hr
        obtain ⟨rfl, _⟩ := hr
        exact absurd rfl (hz t)
    · rw [Nat.ofDigitChars_append, Nat.ofDigitChars_append, hv, Nat.ofDigitChars_replicate_zero,
        show (['0'] : List Char) = List.replicate 1 '0' from rfl, Nat.ofDigitChars_replicate_zero,
        Nat.pow_succ, Nat.pow_one]
      ac_rfl
  rename_i hc1
  refine ⟨fun h => absurd h hc1, fun _ => ?_, ?_⟩
  · split
    · rename_i hc
      refine ⟨ds.take ((ds.length : Int) + k).toNat, '.' :: ds.drop ((ds.length : Int) + k).toNat,
        ds.drop ((ds.length : Int) + k).toNat, [], 0, ⟨digits_sub ⟨hne, hdig⟩ ?_ ?_, ?_⟩,
        .some (digits_sub ⟨hne, hdig⟩ ?_ ?_), .none, by simp, ?_, ?_⟩
      · rw [← List.length_pos_iff, List.length_take]; omega
      · exact fun c hc => List.mem_of_mem_take hc
      · intro r hr
        cases ds with
        | nil => exact absurd rfl hne
        | cons a t =>
          have : ((((a :: t).length : Int) + k).toNat) = ((((a :: t).length : Int) + k).toNat - 1) + 1 := by omega
          rw [this, List.take_succ_cons] at hr
          simp only [List.cons.injEq] at hr
          obtain ⟨rfl, _⟩ := hr
          exact absurd rfl (hz t)
      · rw [← List.length_pos_iff, List.length_drop]; omega
      · exact fun c hc => List.mem_of_mem_drop hc
      · rw [List.take_append_drop, hv]
      · rw [List.length_drop]; omega
    split
    · rename_i hc0 hc
      refine ⟨['0'], '.' :: (List.replicate (-((ds.length : Int) + k)).toNat '0' ++ ds),
        List.replicate (-((ds.length : Int) + k)).toNat '0' ++ ds, [], 0, ⟨⟨by simp, by decide⟩, ?_⟩,
        .some ⟨by simp [hne], ?_⟩, .none, by simp, ?_, ?_⟩
      · intro r hr; simpa using hr
      · intro c hc
        rcases List.mem_append.mp hc with h | h
        · have := List.eq_of_mem_replicate h; subst this; decide
        · exact hdig c h
      · rw [Nat.ofDigitChars_append, Nat.ofDigitChars_append, Nat.ofDigitChars_replicate_zero,
          show Nat.ofDigitChars 10 ['0'] 0 = 0 by decide, Nat.mul_zero, hv]
      · rw [List.length_append, List.length_replicate]; omega
    split
    · rename_i hc
      refine ⟨ds, [], [], 'e' :: printExp ((ds.length : Int) + k - 1), (ds.length : Int) + k - 1,
        ⟨⟨hne, hdig⟩, fun r hr => absurd hr (hz r)⟩, .none, expText_printExp _ (.inl rfl) _, by simp,
        by rw [List.append_nil, hv], ?_⟩
      simp only [List.length_nil]; omega
    · rename_i hc
      refine ⟨ds.take 1, '.' :: ds.drop 1, ds.drop 1, 'e' :: printExp ((ds.length : Int) + k - 1),
        (ds.length : Int) + k - 1,
        ⟨digits_sub ⟨hne, hdig⟩ ?_ ?_, ?_⟩, .some (digits_sub ⟨hne, hdig⟩ ?_ ?_), expText_printExp _ (.inl rfl) _,
        by simp, ?_, ?_⟩
      · rw [← List.length_pos_iff, List.length_take]; omega
      · exact fun c hc => List.mem_of_mem_take hc
      · intro r hr
        cases ds with
        | nil => exact absurd rfl hne
        | cons a t =>
          simp only [List.take_succ_cons, List.take_zero, List.cons.injEq] at hr
          exact hr.2.symm
      · rw [← List.length_pos_iff, List.length_drop]; omega
      · exact fun c hc => List.mem_of_mem_drop hc
      · rw [List.take_append_drop, hv]
      · rw [List.length_drop]; omega
  · split
    · left; simp
    split
    · left; simp
    split
    · right; simp
    · left; simp

/-! ### How literals are read -/

theorem ofDigitChars_ge (ds : List Char) (s : Nat) : s ≤ Nat.ofDigitChars 10 ds s := by
  induction ds generalizing s with
  | nil => simp
  | cons c ds ih =>
    rw [Nat.ofDigitChars_cons]
    exact Nat.le_trans (by omega) (ih _)

theorem digit_step (c : Char) (s : Nat) : s * 10 + dig c = 10 * s + (c.toNat - '0'.toNat) := by
  have : '0'.toNat = 48 := by decide
  rw [dig, this, Nat.mul_comm]

theorem sigInt_eq (ds : List Char) (s : Nat) (h : Nat.ofDigitChars 10 ds s < 2 ^ 64) :
    sigInt s ds = (Nat.ofDigitChars 10 ds s, 0) := by
  induction ds generalizing s with
  | nil => simp [sigInt]
  | cons c ds ih =>
    rw [Nat.ofDigitChars_cons] at *
    rw [sigInt, digit_step, if_pos (Nat.lt_of_le_of_lt (ofDigitChars_ge _ _) h), ih _ h]

theorem sigFrac_eq (ds : List Char) (s : Nat) (e : Int) (h : Nat.ofDigitChars 10 ds s < 2 ^ 64) :
    sigFrac s e ds = (Nat.ofDigitChars 10 ds s, e - ds.length) := by
  induction ds generalizing s e with
  | nil => simp [sigFrac]
  | cons c ds ih =>
    rw [Nat.ofDigitChars_cons] at *
    rw [sigFrac, digit_step, if_pos (Nat.lt_of_le_of_lt (ofDigitChars_ge _ _) h), ih _ _ h]
    simp only [List.length_cons, Prod.mk.injEq, true_and]
    omega

theorem expVal_eq (ds : List Char) (s : Nat) (h : Nat.ofDigitChars 10 ds s < 2 ^ 31) :
    expVal s ds = some (Nat.ofDigitChars 10 ds s) := by
  induction ds generalizing s with
  | nil => simp [expVal]
  | cons c ds ih =>
    rw [Nat.ofDigitChars_cons] at *
    rw [expVal, digit_step, if_pos (Nat.lt_of_le_of_lt (ofDigitChars_ge _ _) h), ih _ h]

theorem isDigit_of {c : Char} (h : '0' ≤ c ∧ c ≤ '9') : Text.isDigit c = true := by
  simp [Text.isDigit, h.1, h.2]

/-- Nothing that follows a run of digits in a literal starts with a digit. -/
def Stops (r : List Char) : Prop := ∀ c ∈ r.head?, Text.isDigit c = false

theorem span_digits {ds r : List Char} (h : ∀ c ∈ ds, '0' ≤ c ∧ c ≤ '9') (hr : Stops r) :
    (ds ++ r).takeWhile Text.isDigit = ds ∧ (ds ++ r).dropWhile Text.isDigit = r := by
  have h' : ∀ c ∈ ds, Text.isDigit c = true := fun c hc => isDigit_of (h c hc)
  rw [List.takeWhile_append_of_pos h', List.dropWhile_append_of_pos h']
  cases r with
  | nil => simp
  | cons c r =>
    have := hr c (by simp)
    simp [this]

theorem stops_exp {et : List Char} {x : Int} (h : ExpText et x) : Stops et := by
  intro c hc
  cases h with
  | none => simp at hc
  | plain h _ => simp at hc; subst hc; rcases h with rfl | rfl <;> decide
  | plus h _ => simp at hc; subst hc; rcases h with rfl | rfl <;> decide
  | minus h _ => simp at hc; subst hc; rcases h with rfl | rfl <;> decide

theorem stops_frac {ft fr et : List Char} {x : Int} (h : FracText ft fr) (h' : ExpText et x) : Stops (ft ++ et) := by
  cases h with
  | none => exact stops_exp h'
  | some _ => intro c hc; simp at hc; subst hc; decide

theorem saturate_eq {e : Int} (h : e.natAbs ≤ 2 ^ 30) : saturate e = e := by
  unfold saturate; omega

theorem head_digit {ds : List Char} (h : Digits ds) : ds.head? ≠ some '-' ∧ ds.head? ≠ some '+' := by
  obtain ⟨hne, h⟩ := h
  cases ds with
  | nil => exact absurd rfl hne
  | cons c t =>
    have := h c (by simp)
    constructor <;> (intro e; simp at e; subst e; revert this; decide)

theorem readTail_eq {et : List Char} {x : Int} (h : ExpText et x) (s : Nat) (e : Int) (hx : x.natAbs < 2 ^ 31)
    (he : (e + x).natAbs ≤ 2 ^ 30) : readTail s e et = fromParts s (e + x) := by
  cases h with
  | none => simp [readTail]
  | plain hc hd =>
    have hh := head_digit hd
    rw [readTail, readExp]
    simp only [hh.1, hh.2, or_self, if_false, ne_eq, not_false_eq_true, if_true]
    rw [expVal_eq _ _ (by omega)]
    simp only
    rw [saturate_eq he]
  | plus hc hd =>
    rw [readTail, readExp]
    simp only [List.head?_cons, Option.some.injEq, Char.reduceEq, or_true, if_true, List.tail_cons, ne_eq,
      not_false_eq_true]
    rw [expVal_eq _ _ (by omega)]
    simp only
    rw [saturate_eq he]
  | minus hc hd =>
    rw [readTail, readExp]
    simp only [List.head?_cons, true_or, if_true, List.tail_cons, ne_eq, not_true_eq_false, if_false]
    rw [expVal_eq _ _ (by omega)]
    simp only
    rw [← Int.sub_eq_add_neg] at he ⊢
    rw [saturate_eq he]

theorem expText_not_dot {et : List Char} {x : Int} (h : ExpText et x) : et.head? ≠ some '.' := by
  cases h with
  | none => simp
  | plain h _ => rcases h with rfl | rfl <;> simp
  | plus h _ => rcases h with rfl | rfl <;> simp
  | minus h _ => rcases h with rfl | rfl <;> simp

/-- A literal whose digits fit `u64` is read as these digits and this exponent. -/
theorem read_literal {cs : List Char} {neg : Bool} {s : Nat} {e : Int} (h : Literal cs neg s e)
    (hs : s < 2 ^ 64) (hl : cs.length ≤ 2 ^ 29) (he : e.natAbs ≤ 2 ^ 29) :
    read cs = (fromParts s e).map (F64.make neg) := by
  obtain ⟨ds, ft, fr, et, x, hds, hft, het, rfl, rfl, rfl⟩ := h
  have hlen : fr.length ≤ 2 ^ 29 := by
    have : fr.length ≤ ft.length := by cases hft <;> simp
    simp only [List.length_append] at hl
    omega
  have hmag : readMag (ds ++ ft ++ et) = fromParts (Nat.ofDigitChars 10 (ds ++ fr) 0) (x - fr.length) := by
    rw [Nat.ofDigitChars_append] at hs ⊢
    have hs' := Nat.lt_of_le_of_lt (ofDigitChars_ge fr _) hs
    obtain ⟨h1, h2⟩ := span_digits hds.1.2 (stops_frac hft het)
    rw [List.append_assoc]
    unfold readMag
    rw [h1, h2, sigInt_eq _ _ hs']
    cases hft with
    | none =>
      simp only [List.nil_append, Nat.ofDigitChars_nil, List.length_nil]
      have := readTail_eq het (Nat.ofDigitChars 10 ds 0) 0 (by omega) (by omega)
      cases et with
      | nil => cases het; simp
      | cons c r =>
        have hc : c ≠ '.' := by have := expText_not_dot het; simpa using this
        rw [readTail] at this
        simp only [if_neg hc]
        rw [Int.zero_add] at this
        simpa using this
    | some hd =>
      simp only [List.cons_append, if_true]
      obtain ⟨h3, h4⟩ := span_digits hd.2 (stops_exp het)
      rw [h3, h4, sigFrac_eq _ _ _ hs]
      have := readTail_eq het (Nat.ofDigitChars 10 fr (Nat.ofDigitChars 10 ds 0)) (0 - fr.length) (by omega) (by omega)
      simp only [Int.natCast_zero]
      rw [this]
      congr 1; omega
  unfold read
  cases neg with
  | true => simpa using congrArg (Option.map (F64.make true)) hmag
  | false =>
    have hh : (ds ++ ft ++ et).head? ≠ some '-' := by
      have := (head_digit hds.1).1
      cases ds with
      | nil => exact absurd rfl hds.1.1
      | cons c t => simpa using this
    simp only [Bool.false_eq_true, if_false, List.nil_append]
    rw [if_neg hh, hmag]

/-! ### The exact case -/

/-- A number with 53 bits is a double. -/
theorem exact53 (t : Nat) : ∀ m, m ≤ 2 ^ 53 → ∃ p, value p = m * 2 ^ t := by
  induction t with
  | zero => intro m hm; exact ⟨0 * 2 ^ 52 + m, value_at 0 m (.inl rfl) hm⟩
  | succ t ih =>
    intro m hm
    by_cases h : 2 ^ 52 ≤ m
    · exact ⟨_, value_at (t + 1) m (.inr h) hm⟩
    · obtain ⟨p, hp⟩ := ih (2 * m) (by omega)
      exact ⟨p, by rw [hp, Nat.pow_succ']; rw [Nat.mul_comm 2, Nat.mul_assoc]⟩

theorem rnd_exact {p a : Nat} (h : value p = a) (hf : a < 2 ^ 2098) : value (rnd a 1) = a ∧ rnd a 1 < infinity := by
  have hp : p < infinity := finite_of_value (by omega)
  have : rnd a 1 = p := by
    rw [rnd_value (n := p) (by decide) (by omega)]; exact Nat.min_eq_right (Nat.le_of_lt hp)
  rw [this]; exact ⟨h, hp⟩

theorem ofNat_exact {s : Nat} (h : s ≤ 2 ^ 53) : value (ofNat s) = s * unit ∧ ofNat s < infinity := by
  obtain ⟨p, hp⟩ := exact53 1074 s h
  unfold ofNat
  have e : s * unit = s * 2 ^ 1074 := by unfold unit; rfl
  rw [e]
  refine rnd_exact hp ?_
  refine Nat.lt_of_le_of_lt (Nat.mul_le_mul_right _ h) ?_
  rw [← Nat.pow_add]
  exact Nat.pow_lt_pow_right (by decide) (by decide)

theorem pow10_exact {k : Nat} (h : k ≤ 22) : value (pow10 k) = 10 ^ k * unit ∧ pow10 k < infinity := by
  have h5 : 5 ^ k ≤ 2 ^ 53 := Nat.le_trans (Nat.pow_le_pow_right (by decide) h) (by decide)
  obtain ⟨p, hp⟩ := exact53 (k + 1074) (5 ^ k) h5
  unfold pow10
  have e : 10 ^ k * unit = 5 ^ k * 2 ^ (k + 1074) := by
    unfold unit
    rw [show 10 = 5 * 2 from rfl, Nat.mul_pow, Nat.mul_assoc, ← Nat.pow_add]
  rw [e]
  refine rnd_exact hp ?_
  refine Nat.lt_of_le_of_lt (Nat.mul_le_mul_right _ h5) ?_
  rw [← Nat.pow_add]
  exact Nat.pow_lt_pow_right (by decide) (by omega)

theorem unit_lt : 2 ^ 53 * 10 ^ 22 * unit < 2 ^ 2098 := by unfold unit; decide +kernel

theorem fromParts_exact {s : Nat} {e : Int} (hs : s ≤ 2 ^ 53) (he : e.natAbs ≤ 22) :
    ∃ n, fromParts s e = some n ∧ NearestDec n s e ∧ n < infinity := by
  obtain ⟨h1, _⟩ := ofNat_exact hs
  obtain ⟨h2, h2'⟩ := pow10_exact he
  have hp : ∀ j, 0 < 10 ^ j := fun j => Nat.pow_pos (by decide)
  have hu := unit_pos
  have key : ∀ a b n, 0 < b → n = rnd a b → a * 10 ^ (-e).toNat = s * 10 ^ e.toNat * unit * b →
      NearestDec n s e ∧ n < infinity := by
    intro a b n hb hn hab
    have hn1 := near_roundPat a b hb
    have hn2 := Near.congr hn1 hb (hp (-e).toNat) hab
    have hfin : roundPat a b < infinity := by
      have hv := near_value infinity 1 (by decide)
      by_cases hh : roundPat a b < infinity
      · exact hh
      · exfalso
        have hm := hv.mono hn2
        have hle := hn2.mono (near_value (ofNat 1) 1 (by decide)) (hp _) (by decide)
        have hx : s * 10 ^ e.toNat * unit ≤ 2 ^ 53 * 10 ^ 22 * unit :=
          Nat.mul_le_mul_right _ (Nat.mul_le_mul hs (Nat.pow_le_pow_right (by decide) (by omega)))
        have h10 := hp (-e).toNat
        obtain ⟨l1, _⟩ := hn2
        have hgt : value (infinity - 1) + value infinity ≤ value (roundPat a b - 1) + value (roundPat a b) :=
          Nat.add_le_add (value_le (by omega)) (value_le (by omega))
        rw [value_infinity] at hgt
        have hlt := unit_lt
        have l2 : (2 ^ 2098) * 10 ^ (-e).toNat ≤ (value (roundPat a b - 1) + value (roundPat a b)) * 10 ^ (-e).toNat :=
          Nat.mul_le_mul_right _ (by omega)
        have l3 : 2 ^ 2098 ≤ 2 ^ 2098 * 10 ^ (-e).toNat := Nat.le_mul_of_pos_right _ h10
        have l4 : value infinity ≤ value (roundPat a b) := value_le (by omega)
        have l5 : 2 * (2 ^ 53 * 10 ^ 22 * unit) < 2 ^ 2098 := by unfold unit; decide +kernel
        have l6 : roundPat a b ≠ 0 := by unfold infinity at hh; omega
        generalize (value (roundPat a b - 1) + value (roundPat a b)) * 10 ^ (-e).toNat = A at *
        generalize s * 10 ^ e.toNat * unit = B at *
        generalize 2 ^ 53 * 10 ^ 22 * unit = C at *
        generalize 2 ^ 2098 * 10 ^ (-e).toNat = D at *
        generalize 2 ^ 2098 = E at *
        omega
    subst hn
    rw [rnd, Nat.min_eq_right (Nat.le_of_lt hfin)]
    exact ⟨hn2.nearest (hp _), hfin⟩
  unfold fromParts
  rw [scale, if_pos (by omega)]
  split
  · rename_i h0
    have := key _ _ _ hu (rfl : mul (ofNat s) (pow10 e.natAbs) = _) (by
      rw [h1, h2, show (-e).toNat = 0 by omega, show e.toNat = e.natAbs by omega, Nat.pow_zero, Nat.mul_one]
      ac_rfl)
    rw [if_neg (by omega)]
    exact ⟨_, rfl, this⟩
  · rename_i h0
    have := key _ _ _ (by rw [h2]; exact Nat.mul_pos (hp _) hu) (rfl : div (ofNat s) (pow10 e.natAbs) = _) (by
      rw [h1, h2, show (-e).toNat = e.natAbs by omega, show e.toNat = 0 by omega, Nat.pow_zero, Nat.mul_one]
      ac_rfl)
    exact ⟨_, rfl, this⟩

/-! ### Printed doubles -/

theorem digitCount_le {d k : Nat} (hk : 0 < k) : digitCount d ≤ k ↔ d < 10 ^ k :=
  Nat.length_toDigits_le_iff (by decide) hk

theorem digitCount_pos (d : Nat) : 0 < digitCount d := Nat.length_toDigits_pos

theorem lt_pow_digitCount (d : Nat) : d < 10 ^ digitCount d := (digitCount_le (digitCount_pos d)).mp (Nat.le_refl _)

theorem pow_le_of_digitCount {d : Nat} (hd : 0 < d) : 10 ^ (digitCount d - 1) ≤ d := by
  by_cases h1 : digitCount d = 1
  · rw [h1]; exact hd
  · have hp := digitCount_pos d
    have := (digitCount_le (d := d) (k := digitCount d - 1) (by omega))
    by_cases h : 10 ^ (digitCount d - 1) ≤ d
    · exact h
    · have := this.mpr (by omega); omega

/-- The decimal exponent of a finite double has at most three digits. -/
theorem exponent_range {n d i : Nat} (hn : 0 < n) (hf : n < infinity) (h : Inside n d i) :
    751 ≤ digitCount d + i ∧ digitCount d + i ≤ 1383 := by
  have hd := inside_pos hn h
  obtain ⟨h1, h2⟩ := h
  constructor
  · by_cases hh : 751 ≤ digitCount d + i
    · exact hh
    · exfalso
      have e1 : d * 10 ^ i ≤ 10 ^ 750 := by
        refine Nat.le_trans (Nat.mul_le_mul_right _ (Nat.le_of_lt (lt_pow_digitCount d))) ?_
        rw [← Nat.pow_add]
        exact Nat.pow_le_pow_right (by decide) (by omega)
      have e2 : 1 * fives ≤ (value (n - 1) + value n) * fives :=
        Nat.mul_le_mul_right _ (by have := value_lt hn; omega)
      have e3 : 2 * 10 ^ 750 < fives := by unfold fives; decide +kernel
      rw [Nat.one_mul] at e2
      generalize (value (n - 1) + value n) * fives = A at *
      generalize d * 10 ^ i = B at *
      generalize 10 ^ 750 = C at *
      omega
  · by_cases hh : digitCount d + i ≤ 1383
    · exact hh
    · exfalso
      have e1 : 10 ^ 1383 ≤ d * 10 ^ i := by
        refine Nat.le_trans ?_ (Nat.mul_le_mul_right _ (pow_le_of_digitCount hd))
        rw [← Nat.pow_add]
        exact Nat.pow_le_pow_right (by decide) (by omega)
      have e2 : (value n + value (n + 1)) * fives ≤ (2 ^ 2098 + 2 ^ 2098) * fives := by
        refine Nat.mul_le_mul_right _ (Nat.add_le_add (Nat.le_of_lt (value_finite hf)) ?_)
        rw [← value_infinity]; exact value_le hf
      have e3 : (2 ^ 2098 + 2 ^ 2098) * fives < 2 * 10 ^ 1383 := by unfold fives; decide +kernel
      generalize (value n + value (n + 1)) * fives = A at *
      generalize d * 10 ^ i = B at *
      generalize 10 ^ 1383 = C at *
      generalize (2 ^ 2098 + 2 ^ 2098) * fives = D at *
      omega

theorem printExp_length {e : Int} (h : e.natAbs < 1000) : (printExp e).length ≤ 4 := by
  have : (Nat.toDigits 10 e.natAbs).length ≤ 3 := (digitCount_le (by decide)).mpr h
  unfold printExp Text.printInt
  split
  · simp only [List.length_cons]; omega
  · omega

theorem layout_length {d : Nat} {k : Int} (h17 : digitCount d ≤ 17) (hk : -323 ≤ digitCount d + k)
    (hk' : digitCount d + k ≤ 309) : (layout d k).length ≤ 23 := by
  have hp := digitCount_pos d
  unfold digitCount at *
  unfold layout
  generalize Nat.toDigits 10 d = ds at *
  simp only
  split
  · simp; omega
  split
  · simp; omega
  split
  · simp; omega
  have he := printExp_length (e := (ds.length : Int) + k - 1) (by omega)
  split
  · simp; omega
  · simp; omega

theorem digits17' {n : Nat} (hn : 0 < n) (hf : n < infinity) : digitCount (search n 1400).1 ≤ 17 :=
  (digitCount_le (by decide)).mpr (digits17 hn hf)

/-- What is printed for a positive finite double, in one place. -/
theorem printMag_spec {n : Nat} (hn : 0 < n) (hf : n < infinity) :
    ∃ s e, Literal (printMag n) false s e ∧ SameNumber (shortest n).1 (shortest n).2 s e ∧
      ('.' ∈ printMag n ∨ 'e' ∈ printMag n) ∧ (printMag n).length ≤ 23 ∧ s < 10 ^ 17 ∧
      (s = (shortest n).1 ∧ e = (shortest n).2 ∨
        0 ≤ (shortest n).2 ∧ s = (shortest n).1 * 10 ^ ((shortest n).2.toNat + 1) ∧ e = -1) ∧
      -1100 ≤ e ∧ e ≤ 308 := by
  obtain ⟨h1, h2, h3⟩ := search_found hn hf
  have h17 := digits17 hn hf
  have h17' := digits17' hn hf
  have hr := exponent_range hn hf h1
  have hd := inside_pos hn h1
  have hi := inside_lt hn hf h1
  have e0 : printMag n = layout (shortest n).1 (shortest n).2 := by rw [printMag, if_neg (by omega)]
  rw [e0]
  unfold shortest
  generalize (search n 1400).1 = d at *
  generalize (search n 1400).2 = i at *
  simp only
  obtain ⟨l1, l2, l3⟩ := layout_parts hd ((i : Int) - 1074)
  have hlen := layout_length (k := (i : Int) - 1074) h17' (by omega) (by omega)
  by_cases hc : 0 ≤ (i : Int) - 1074 ∧ (digitCount d : Int) + ((i : Int) - 1074) ≤ 16
  · refine ⟨_, _, l1 hc, ?_, l3, hlen, ?_, .inr ⟨hc.1, rfl, rfl⟩, by omega, by omega⟩
    · have := sameNumber_shift d ((i : Int) - 1074) (((i : Int) - 1074).toNat + 1)
      rwa [show (i : Int) - 1074 - ((((i : Int) - 1074).toNat + 1 : Nat) : Int) = -1 by omega] at this
    · have e1 := lt_pow_digitCount d
      have e2 : d * 10 ^ (((i : Int) - 1074).toNat + 1) <
          10 ^ digitCount d * 10 ^ (((i : Int) - 1074).toNat + 1) :=
        Nat.mul_lt_mul_of_pos_right e1 (Nat.pow_pos (by decide))
      rw [← Nat.pow_add] at e2
      exact Nat.lt_of_lt_of_le e2 (Nat.pow_le_pow_right (by decide) (by omega))
  · have := digitCount_pos d
    exact ⟨_, _, l2 hc, rfl, l3, hlen, h17, .inl ⟨rfl, rfl⟩, by omega, by omega⟩

theorem shortest_nearest {n : Nat} (hn : 0 < n) (hf : n < infinity) :
    NearestDec n (shortest n).1 (shortest n).2 := nearestDec_of_inside (search_found hn hf).1

theorem nearestDec_zero (e : Int) : NearestDec 0 0 e := by
  intro m
  simp [dist, value_zero]

theorem literal_zero : Literal (printMag 0) false 0 (-1) :=
  ⟨['0'], ['.', '0'], ['0'], [], 0, ⟨⟨by simp, by decide⟩, fun r hr => by simpa using hr⟩,
    .some ⟨by simp, by decide⟩, .none, by simp [printMag], by decide, by simp⟩

theorem literal_sign {cs : List Char} {s : Nat} {e : Int} (h : Literal cs false s e) :
    Literal ('-' :: cs) true s e := by
  obtain ⟨ds, ft, fr, et, x, h1, h2, h3, h4, h5⟩ := h
  exact ⟨ds, ft, fr, et, x, h1, h2, h3, by rw [h4]; simp, h5⟩

/-- C101: a finite double is written as a JSON number literal with a point or an exponent, at most 24
characters, and the double nearest to the number written is the double itself. -/
theorem C101_text (f : F64) (hf : f.Finite) : ∃ s e, Literal (print f) f.neg s e ∧ NearestDec f.mag s e ∧
    ('.' ∈ print f ∨ 'e' ∈ print f) ∧ (print f).length ≤ 24 := by
  have hf' : f.mag < infinity := hf
  have key : ∃ s e, Literal (printMag f.mag) false s e ∧ NearestDec f.mag s e ∧
      ('.' ∈ printMag f.mag ∨ 'e' ∈ printMag f.mag) ∧ (printMag f.mag).length ≤ 23 := by
    by_cases hn : f.mag = 0
    · rw [hn]
      exact ⟨0, -1, literal_zero, nearestDec_zero _, by simp [printMag], by simp [printMag]⟩
    · obtain ⟨s, e, h1, h2, h3, h4, _⟩ := printMag_spec (n := f.mag) (by omega) hf'
      exact ⟨s, e, h1, nearestDec_congr (shortest_nearest (by omega) hf') h2, h3, h4⟩
  obtain ⟨s, e, h1, h2, h3, h4⟩ := key
  refine ⟨s, e, ?_⟩
  unfold print
  rw [if_pos hf']
  cases f.neg with
  | true =>
    simp only [if_true]
    exact ⟨literal_sign h1, h2, by simpa using h3, by simp only [List.length_cons]; omega⟩
  | false => exact ⟨h1, h2, h3, by simp only [Bool.false_eq_true, if_false]; omega⟩

/-- C101: of all decimals that are nearest to this double, the one written has the fewest digits; of those with
its exponent it is the closest.  It has at most 17 digits. -/
theorem C101_shortest (f : F64) (hf : f.Finite) (h0 : f.mag ≠ 0) : ∃ d k s e,
    Literal (print f) f.neg s e ∧ SameNumber d k s e ∧ NearestDec f.mag d k ∧ digitCount d ≤ 17 ∧
    (∀ d' k', NearestDec f.mag d' k' → digitCount d ≤ digitCount d') ∧
    (∀ d', NearestDec f.mag d' k →
      dist (d * 10 ^ k.toNat * unit) (value f.mag * 10 ^ (-k).toNat) ≤
        dist (d' * 10 ^ k.toNat * unit) (value f.mag * 10 ^ (-k).toNat)) := by
  have hf' : f.mag < infinity := hf
  generalize hn : f.mag = n at *
  have hn0 : 0 < n := by omega
  obtain ⟨s, e, h1, h2, _⟩ := printMag_spec hn0 hf'
  obtain ⟨g1, g2, g3⟩ := search_found hn0 hf'
  have hp : ∀ j, 0 < 10 ^ j := fun j => Nat.pow_pos (by decide)
  have hlit : Literal (print f) f.neg s e := by
    unfold print
    rw [hn, if_pos hf']
    cases f.neg with
    | true => exact literal_sign h1
    | false => exact h1
  refine ⟨_, _, s, e, hlit, h2, shortest_nearest hn0 hf', digits17' hn0 hf', ?_, ?_⟩
  · intro d' k' h'
    have hd := inside_pos hn0 g1
    unfold shortest at *
    generalize (search n 1400).1 = d at *
    generalize (search n 1400).2 = i at *
    simp only at *
    have hk : k' ≤ (i : Int) - 1074 := by
      by_cases hk : -1074 ≤ k'
      · have := g2 _ _ (inside_of_nearestDec hk h'); omega
      · omega
    by_cases hle : digitCount d ≤ digitCount d'
    · exact hle
    · exfalso
      have hc := digitCount_pos d'
      have e1 : d' < 10 ^ (digitCount d - 1) := by
        refine Nat.lt_of_lt_of_le (lt_pow_digitCount d') (Nat.pow_le_pow_right (by decide) (by omega))
      have e2 := pow_le_of_digitCount hd
      have n0 := near_roundPat (10 ^ (i + (digitCount d - 1))) fives five_pos
      have m1 := n0.mono g1 five_pos five_pos (by
        refine Nat.mul_le_mul_right _ ?_
        rw [Nat.pow_add, Nat.mul_comm]
        exact Nat.mul_le_mul_right _ e2)
      have m2 := (Near.of_nearest h' (hp _)).mono n0 (hp _) five_pos (by
        rw [Nat.mul_assoc (d' * _), unit_fives, ← Nat.pow_add, Nat.mul_assoc, ← Nat.pow_add]
        refine Nat.le_trans (Nat.mul_le_mul_right _ (Nat.le_of_lt e1)) ?_
        rw [← Nat.pow_add]
        exact Nat.pow_le_pow_right (by decide) (by omega))
      have hN : roundPat (10 ^ (i + (digitCount d - 1))) fives = n := by omega
      rw [hN] at n0
      have := g2 (i + (digitCount d - 1)) 1 (by unfold Inside; rw [Nat.one_mul]; exact n0)
      omega
  · intro d' h'
    unfold shortest at *
    have h'' := inside_of_nearestDec (by simp only; omega) h'
    simp only at *
    rw [show (((search n 1400).2 : Int) - 1074 + 1074).toNat = (search n 1400).2 by omega] at h''
    have := g3 d' h''
    generalize (search n 1400).1 = d at *
    generalize (search n 1400).2 = i at *
    have e1 : ((i : Int) - 1074).toNat = i - 1074 := by omega
    have e2 : (-((i : Int) - 1074)).toNat = 1074 - i := by omega
    rw [e1, e2]
    have scale : ∀ x : Nat, x * 10 ^ (i - 1074) * unit * fives = x * 10 ^ i * 10 ^ (1074 - i) := by
      intro x
      rw [Nat.mul_assoc (x * _), unit_fives, Nat.mul_assoc, Nat.mul_assoc, ← Nat.pow_add, ← Nat.pow_add,
        show i + (1074 - i) = i - 1074 + 1074 by omega]
    have dmul : ∀ a b c : Nat, dist a b * c = dist (a * c) (b * c) := by
      intro a b c; unfold dist; rw [Nat.add_mul, Nat.sub_mul, Nat.sub_mul]
    have t := Nat.mul_le_mul_right (10 ^ (1074 - i)) this
    rw [dmul, dmul, ← scale, ← scale] at t
    have e3 : value n * fives * 10 ^ (1074 - i) = value n * 10 ^ (1074 - i) * fives := Nat.mul_right_comm ..
    rw [e3, ← dmul, ← dmul] at t
    exact Nat.le_of_mul_le_mul_right t five_pos

theorem expText_unique {et : List Char} {x y : Int} (h : ExpText et x) (h' : ExpText et y) : x = y := by
  cases h with
  | none => cases h'; rfl
  | plain hc hd =>
    have := head_digit hd
    cases h' with
    | plain _ _ => rfl
    | plus _ _ => simp at this
    | minus _ _ => simp at this
  | plus hc hd =>
    cases h' with
    | plain _ hd' => have := head_digit hd'; simp at this
    | plus _ _ => rfl
  | minus hc hd =>
    cases h' with
    | plain _ hd' => have := head_digit hd'; simp at this
    | minus _ _ => rfl

/-- A text denotes one number. -/
theorem Literal.unique {cs : List Char} {neg neg' : Bool} {s s' : Nat} {e e' : Int} (h : Literal cs neg s e)
    (h' : Literal cs neg' s' e') : neg = neg' ∧ s = s' ∧ e = e' := by
  obtain ⟨ds, ft, fr, et, x, h1, h2, h3, h4, rfl, rfl⟩ := h
  obtain ⟨ds', ft', fr', et', x', h1', h2', h3', h4', rfl, rfl⟩ := h'
  have sign : ∀ (n : Bool) (ds r : List Char), IntPart ds →
      (((if n then ['-'] else []) ++ (ds ++ r)).head? = some '-' ↔ n = true) := by
    intro n ds r hi
    cases n with
    | true => simp
    | false =>
      have := (head_digit hi.1).1
      cases ds with
      | nil => exact absurd rfl hi.1.1
      | cons c t => simpa using this
  rw [List.append_assoc, List.append_assoc] at h4 h4'
  have hs : neg = neg' := by
    have a := sign neg ds (ft ++ et) h1
    have b := sign neg' ds' (ft' ++ et') h1'
    rw [← h4] at a
    rw [← h4'] at b
    cases neg <;> cases neg' <;> simp_all
  subst hs
  rw [h4] at h4'
  have h5 := List.append_cancel_left h4'
  obtain ⟨k1, k2⟩ := span_digits h1.1.2 (stops_frac h2 h3)
  obtain ⟨k1', k2'⟩ := span_digits h1'.1.2 (stops_frac h2' h3')
  rw [h5, k1'] at k1
  rw [h5, k2'] at k2
  subst k1
  have key : fr = fr' ∧ et = et' := by
    cases h2 with
    | none =>
      cases h2' with
      | none => exact ⟨rfl, by simpa using k2.symm⟩
      | some _ =>
        have := expText_not_dot h3
        rw [List.nil_append] at k2
        rw [← k2] at this
        simp at this
    | some hd =>
      cases h2' with
      | none =>
        have := expText_not_dot h3'
        rw [List.nil_append] at k2
        rw [k2] at this
        simp at this
      | some hd' =>
        simp only [List.cons_append, List.cons.injEq, true_and] at k2
        obtain ⟨j1, j2⟩ := span_digits hd.2 (stops_exp h3)
        obtain ⟨j1', j2'⟩ := span_digits hd'.2 (stops_exp h3')
        rw [← k2, j1'] at j1
        rw [← k2, j2'] at j2
        exact ⟨j1.symm, j2.symm⟩
  obtain ⟨rfl, rfl⟩ := key
  have hx := expText_unique h3 h3'
  subst hx
  exact ⟨rfl, rfl, rfl⟩

theorem mag_lt (f : F64) : f.mag < 2 ^ 63 := Nat.mod_lt _ (by decide)

/-- A double is its sign and its magnitude. -/
theorem make_eq (f : F64) : F64.make f.neg f.mag = f := by
  have h := f.bits.toNat_lt
  have e : (if f.neg = true then 2 ^ 63 else 0) + f.mag = f.bits.toNat := by
    unfold F64.neg F64.mag
    simp only [decide_eq_true_eq]
    split <;> omega
  unfold F64.make
  rw [e, UInt64.ofNat_toNat]

theorem make_parts {neg : Bool} {n : Nat} (h : n < infinity) :
    (F64.make neg n).mag = n ∧ (F64.make neg n).neg = neg ∧ (F64.make neg n).Finite := by
  have h63 : n < 2 ^ 63 := by unfold infinity at h; omega
  have e : (F64.make neg n).bits.toNat = (if neg then 2 ^ 63 else 0) + n := by
    unfold F64.make
    simp only
    rw [UInt64.toNat_ofNat', Nat.mod_eq_of_lt]
    split <;> omega
  have h1 : (F64.make neg n).mag = n := by
    unfold F64.mag; rw [e]
    split <;> omega
  refine ⟨h1, ?_, by unfold F64.Finite; rw [h1]; exact h⟩
  unfold F64.neg; rw [e]
  cases neg <;> simp <;> omega

theorem finite_ext {f g : F64} (h1 : f.neg = g.neg) (h2 : f.mag = g.mag) : f = g := by
  rw [← make_eq f, h1, h2, make_eq]

/-- C101: two finite doubles never have the same text. -/
theorem C101_injective (f g : F64) (hf : f.Finite) (hg : g.Finite) (h : print f = print g) : f = g := by
  obtain ⟨s, e, h1, h2, _⟩ := C101_text f hf
  obtain ⟨s', e', h1', h2', _⟩ := C101_text g hg
  rw [h] at h1
  obtain ⟨a, rfl, rfl⟩ := Literal.unique h1 h1'
  exact finite_ext a (nearestDec_unique h2 h2')

/-- The text of 0.1, of the smallest and of the largest double, and of -1e21. -/
example : print ⟨0x3fb999999999999a⟩ = "0.1".toList ∧ print ⟨1⟩ = "5e-324".toList ∧
    print ⟨0x7fefffffffffffff⟩ = "1.7976931348623157e308".toList ∧ print ⟨0xc44b1ae4d6e2ef50⟩ = "-1e21".toList := by
  decide +kernel

example : (⟨0x3fb999999999999a⟩ : F64).Finite ∧ (⟨0x3fb999999999999a⟩ : F64).mag ≠ 0 ∧
    (⟨0x3fb999999999999b⟩ : F64).Finite ∧
    print ⟨0x3fb999999999999a⟩ ≠ print ⟨0x3fb999999999999b⟩ := by decide +kernel

/-! ### C102: reading -/

/-- C102: a number literal with at most 53 bits of digits and a decimal exponent of at most 22 is read as the
double nearest to it. -/
theorem C102_read (cs : List Char) (neg : Bool) (s : Nat) (e : Int) (h : Literal cs neg s e) (hs : s ≤ 2 ^ 53)
    (he : e.natAbs ≤ 22) (hl : cs.length ≤ 2 ^ 29) :
    ∃ f : F64, read cs = some f ∧ f.Finite ∧ f.neg = neg ∧ NearestDec f.mag s e := by
  obtain ⟨n, h1, h2, h3⟩ := fromParts_exact hs he
  refine ⟨F64.make neg n, ?_, (make_parts h3).2.2, (make_parts h3).2.1, by rw [(make_parts h3).1]; exact h2⟩
  rw [read_literal h (by omega) hl (by omega), h1, Option.map_some]

/-- The literal `-12.50E+3`. -/
theorem literal_example : Literal "-12.50E+3".toList true 1250 1 :=
  ⟨['1', '2'], '.' :: ['5', '0'], ['5', '0'], 'E' :: '+' :: ['3'], 3, ⟨⟨by simp, by decide⟩, fun r hr => by simp at hr⟩,
    .some ⟨by simp, by decide⟩, .plus (.inr rfl) ⟨by simp, by decide⟩, by decide, by decide, by decide⟩

example : ∃ f : F64, read "-12.50E+3".toList = some f ∧ f.Finite ∧ f.neg = true ∧ NearestDec f.mag 1250 1 :=
  C102_read _ _ _ _ literal_example (by decide) (by decide) (by decide)

end Double

namespace Spec
open Double

/-- The digits written for `f` form a number of at most 53 bits, and the decimal exponent is at most 22.
Specification about the texts of bsp-server/src/message.rs:44. -/
def Tame (f : F64) : Prop :=
  f.Finite ∧ ∃ neg s e, Literal (Double.print f) neg s e ∧ s ≤ 2 ^ 53 ∧ e.natAbs ≤ 22

end Spec

namespace Double
open Spec Gram

section
attribute [local instance] FloatText.serdeJson

/-- A literal with a point or an exponent is a double in the grammar of JSON. -/
theorem num_of_literal {cs : List Char} {neg : Bool} {s : Nat} {e : Int} {f : F64} (h : Literal cs neg s e)
    (hp : '.' ∈ cs ∨ 'e' ∈ cs) (hr : read cs = some f) : Gram.Num cs (.float f) := by
  obtain ⟨ds, ft, fr, et, x, h1, h2, h3, rfl, _, _⟩ := h
  have hf : Gram.Frac ft := by
    cases h2 with
    | none => exact .inl rfl
    | some hd => exact .inr ⟨_, hd, rfl⟩
  have hx : Gram.Exp et := by
    cases h3 with
    | none => exact .inl rfl
    | plain hc hd => exact .inr ⟨_, [], _, hc, .inl rfl, hd, rfl⟩
    | plus hc hd => exact .inr ⟨_, ['+'], _, hc, .inr (.inl rfl), hd, rfl⟩
    | minus hc hd => exact .inr ⟨_, ['-'], _, hc, .inr (.inr rfl), hd, rfl⟩
  have hno : ft = [] → et = [] → False := by
    intro e1 e2
    subst e1; subst e2
    have hd : ∀ c ∈ ds, c ≠ '.' ∧ c ≠ 'e' := by
      intro c hc
      have := h1.1.2 c hc
      constructor <;> (rintro rfl; revert this; decide)
    cases neg <;> simp at hp
    · rcases hp with h | h
      · exact (hd _ h).1 rfl
      · exact (hd _ h).2 rfl
    · rcases hp with h | h
      · exact (hd _ h).1 rfl
      · exact (hd _ h).2 rfl
  exact .float (by cases neg <;> simp) h1 hf hx (fun a b _ => (hno a b).elim) (fun a b _ => (hno a b).elim) hr

/-- C102, what remains true: a double whose text has few digits survives printing and reading. -/
theorem C102_survives_partial (f : F64) (h : Tame f) : FloatOk f := by
  obtain ⟨hf, neg, s, e, h1, hs, he⟩ := h
  obtain ⟨s', e', h1', h2, h3, h4⟩ := C101_text f hf
  obtain ⟨rfl, rfl, rfl⟩ := Literal.unique h1 h1'
  obtain ⟨g, g1, g2, g3, g4⟩ := C102_read _ _ _ _ h1 hs he (by omega)
  have : g = f := finite_ext g3 (nearestDec_unique g4 h2)
  subst this
  exact num_of_literal h1 h3 g1

/-- 0.1 is written with few digits. -/
theorem tame_tenth : Tame ⟨0x3fb999999999999a⟩ := by
  refine ⟨by decide +kernel, false, 1, -1, ?_, by decide, by decide⟩
  rw [show print ⟨0x3fb999999999999a⟩ = "0.1".toList by decide +kernel]
  exact ⟨['0'], '.' :: ['1'], ['1'], [], 0, ⟨⟨by simp, by decide⟩, fun r hr => by simpa using hr⟩,
    .some ⟨by simp, by decide⟩, .none, by decide, by decide, by decide⟩

example : FloatOk ⟨0x3fb999999999999a⟩ := C102_survives_partial _ tame_tenth

/-- 9007199254740991.0, the largest double below 2^53. An example for bsp-server/src/message.rs:37, 44. -/
def bigOdd : F64 := ⟨0x433fffffffffffff⟩

/-- C102 is false of all doubles: 9007199254740991.0 is read back as 9007199254740990.0. -/
theorem C102_violated : bigOdd.Finite ∧ read (print bigOdd) = some ⟨0x433ffffffffffffe⟩ ∧
    print bigOdd = "9007199254740991.0".toList ∧ print ⟨0x433ffffffffffffe⟩ = "9007199254740990.0".toList ∧
    ¬ FloatOk bigOdd := by
  have h1 : read (print bigOdd) = some ⟨0x433ffffffffffffe⟩ := by decide +kernel
  refine ⟨by decide +kernel, h1, by decide +kernel, by decide +kernel, ?_⟩
  intro h
  have h2 := Text.parseNum_complete h (r := []) (by simp [Text.NumEnd])
  have h3 := Text.parseNum_complete (num_of_literal (C101_text bigOdd (by decide +kernel)).choose_spec.choose_spec.1
    (by decide +kernel) h1) (r := []) (by simp [Text.NumEnd])
  have e : FloatText.print bigOdd = print bigOdd := rfl
  rw [e, h3] at h2
  revert h2
  decide

end

/-! ### C103: what is written is never rejected -/

theorem rnd_mono {a b a' b' : Nat} (hb : 0 < b) (hb' : 0 < b') (h : a * b' ≤ a' * b) : rnd a b ≤ rnd a' b' := by
  have := (near_roundPat a b hb).mono (near_roundPat a' b' hb') hb hb' h
  unfold rnd
  omega

theorem value_min (n : Nat) : value (min infinity n) = min (value infinity) (value n) := by
  by_cases h : n ≤ infinity
  · rw [Nat.min_eq_right h, Nat.min_eq_right (value_le h)]
  · rw [Nat.min_eq_left (by omega), Nat.min_eq_left (value_le (by omega))]

theorem unit_le_pow10 (k : Nat) : unit ≤ value (pow10 k) := by
  have h1 := ofNat_exact (s := 1) (by decide)
  have h2 : ofNat 1 ≤ pow10 k := by
    unfold ofNat pow10
    refine rnd_mono (by decide) (by decide) ?_
    exact Nat.mul_le_mul_right _ (Nat.mul_le_mul_right _ (Nat.pow_pos (by decide)))
  have := value_le h2
  rw [h1.1, Nat.one_mul] at this
  exact this

theorem div_le {f k : Nat} (hf : f < infinity) : div f (pow10 k) ≤ f := by
  have hu := unit_pos
  have hk := unit_le_pow10 k
  have h1 : rnd (value f * 1) 1 = f := by
    rw [rnd_value (n := f) (by decide) rfl]; exact Nat.min_eq_right (Nat.le_of_lt hf)
  conv => rhs; rw [← h1]
  unfold div
  refine rnd_mono (by omega) (by decide) ?_
  rw [Nat.mul_one, Nat.mul_one]
  exact Nat.mul_le_mul_left _ hk

theorem scale_neg {c f : Nat} {e : Int} (he : e < 0) (hf : f < infinity) (hc : e.natAbs / 308 < c) :
    ∃ g, scale c f e = some g ∧ g < infinity := by
  induction c generalizing f e with
  | zero => omega
  | succ c ih =>
    rw [scale]
    split
    · rw [if_neg (by omega)]
      exact ⟨_, rfl, Nat.lt_of_le_of_lt (div_le hf) hf⟩
    split
    · exact ⟨_, rfl, hf⟩
    rw [if_neg (by omega)]
    exact ih (by omega) (Nat.lt_of_le_of_lt (div_le hf) hf) (by omega)

/-- Twice the number from which on one rounds to the largest double.
For the doubles in the values of bsp-server/src/message.rs:37, 44. -/
def limit : Nat := value (infinity - 2) + value (infinity - 1)

theorem table : ∀ k < 309, mul (ofNat (min (limit / (2 * 10 ^ k * unit)) (10 ^ 17))) (pow10 k) < infinity := by
  decide +kernel

theorem max_parts : (shortest (infinity - 1)).1 = 17976931348623157 ∧ (shortest (infinity - 1)).2 = 292 ∧
    mul (ofNat 17976931348623157) (pow10 292) < infinity := by decide +kernel

theorem ofNat_finite {s : Nat} (h : s < 10 ^ 17) : ofNat s < infinity := by
  have h1 : ofNat (10 ^ 17) < infinity := by decide +kernel
  refine Nat.lt_of_le_of_lt ?_ h1
  unfold ofNat
  exact rnd_mono (by decide) (by decide) (Nat.mul_le_mul_right _ (Nat.mul_le_mul_right _ (Nat.le_of_lt h)))

theorem mul_mono {x y z : Nat} (h : x ≤ y) : mul x z ≤ mul y z := by
  unfold mul
  exact rnd_mono unit_pos unit_pos (Nat.mul_le_mul_right _ (Nat.mul_le_mul_right _ (value_le h)))

theorem shortest_mul_finite {n : Nat} (hn : 0 < n) (hf : n < infinity) (hk : 0 ≤ (shortest n).2)
    (hk' : (shortest n).2 ≤ 308) : mul (ofNat (shortest n).1) (pow10 (shortest n).2.natAbs) < infinity := by
  by_cases hm : n = infinity - 1
  · subst hm
    rw [max_parts.1, max_parts.2.1]
    exact max_parts.2.2
  have hnear := shortest_nearest hn hf
  have h17 : (shortest n).1 < 10 ^ 17 := digits17 hn hf
  generalize (shortest n).1 = d at *
  generalize (shortest n).2 = k at *
  have hp : ∀ j, 0 < 10 ^ j := fun j => Nat.pow_pos (by decide)
  obtain ⟨_, h2⟩ := Near.of_nearest hnear (hp _)
  rw [show (-k).toNat = 0 by omega, Nat.pow_zero, Nat.mul_one, show k.toNat = k.natAbs by omega] at h2
  have hle : d * (2 * 10 ^ k.natAbs * unit) ≤ limit := by
    have e : d * (2 * 10 ^ k.natAbs * unit) = 2 * (d * 10 ^ k.natAbs * unit) := by ac_rfl
    rw [e]
    have : value n + value (n + 1) ≤ limit :=
      Nat.add_le_add (value_le (by omega)) (value_le (by omega))
    generalize d * 10 ^ k.natAbs * unit = A at *
    omega
  have hd : d ≤ min (limit / (2 * 10 ^ k.natAbs * unit)) (10 ^ 17) := by
    have h0 : 0 < 2 * 10 ^ k.natAbs * unit := Nat.mul_pos (Nat.mul_pos (by decide) (hp _)) unit_pos
    have := (Nat.le_div_iff_mul_le h0).mpr hle
    omega
  refine Nat.lt_of_le_of_lt (mul_mono ?_) (table k.natAbs (by omega))
  unfold ofNat
  exact rnd_mono (by decide) (by decide) (Nat.mul_le_mul_right _ (Nat.mul_le_mul_right _ hd))

/-- C103: what is written for a finite double is always read as a finite double with the same sign. -/
theorem C103_read (f : F64) (hf : f.Finite) : ∃ g : F64, read (print f) = some g ∧ g.Finite ∧ g.neg = f.neg := by
  obtain ⟨s, e, h1, h2, h3, h4⟩ := C101_text f hf
  have hf' : f.mag < infinity := hf
  have hparts : ∃ n, fromParts s e = some n ∧ n < infinity ∧ s < 2 ^ 64 ∧ e.natAbs ≤ 2 ^ 29 := by
    by_cases h0 : f.mag = 0
    · have hl : Literal (print f) f.neg 0 (-1) := by
        unfold print
        rw [if_pos hf', h0]
        cases f.neg with
        | true => exact literal_sign literal_zero
        | false => exact literal_zero
      obtain ⟨_, rfl, rfl⟩ := Literal.unique h1 hl
      obtain ⟨n, g1, _, g2⟩ := fromParts_exact (s := 0) (e := -1) (by decide) (by decide)
      exact ⟨n, g1, g2, by decide, by decide⟩
    · have hn : 0 < f.mag := by omega
      obtain ⟨s', e', h1', _, _, _, h17, hcase, hlo, hhi⟩ := printMag_spec hn hf'
      have hl : Literal (print f) f.neg s' e' := by
        unfold print
        rw [if_pos hf']
        cases f.neg with
        | true => exact literal_sign h1'
        | false => exact h1'
      obtain ⟨_, rfl, rfl⟩ := Literal.unique h1 hl
      have hfin : ∃ n, fromParts s e = some n ∧ n < infinity := by
        by_cases he : e < 0
        · exact scale_neg he (ofNat_finite h17) (by omega)
        · obtain ⟨c1, c2⟩ : s = (shortest f.mag).1 ∧ e = (shortest f.mag).2 := by
            rcases hcase with hc | hc
            · exact hc
            · omega
          have := shortest_mul_finite hn hf' (by omega) (by omega)
          rw [← c1, ← c2] at this
          refine ⟨mul (ofNat s) (pow10 e.natAbs), ?_, this⟩
          unfold fromParts
          rw [scale, if_pos (by omega), if_pos (by omega), if_neg (by omega)]
      obtain ⟨n, g1, g2⟩ := hfin
      exact ⟨n, g1, g2, by omega, by omega⟩
  obtain ⟨n, g1, g2, g3, g4⟩ := hparts
  refine ⟨F64.make f.neg n, ?_, (make_parts g2).2.2, (make_parts g2).2.1⟩
  rw [read_literal h1 g3 (by omega) g4, g1, Option.map_some]

theorem ofNat_finite' {s : Nat} (h : s < 2 ^ 64) : ofNat s < infinity := by
  have h1 : ofNat (2 ^ 64) < infinity := by decide +kernel
  refine Nat.lt_of_le_of_lt ?_ h1
  unfold ofNat
  exact rnd_mono (by decide) (by decide) (Nat.mul_le_mul_right _ (Nat.mul_le_mul_right _ (Nat.le_of_lt h)))

theorem scale_finite {c f g : Nat} {e : Int} (hf : f < infinity) (h : scale c f e = some g) : g < infinity := by
  induction c generalizing f e with
  | zero => cases h
  | succ c ih =>
    rw [scale] at h
    split at h
    · split at h
      · split at h
        · cases h
        · cases h; omega
      · cases h; exact Nat.lt_of_le_of_lt (div_le hf) hf
    split at h
    · cases h; exact hf
    split at h
    · cases h
    exact ih (Nat.lt_of_le_of_lt (div_le hf) hf) h

theorem sigInt_lt (cs : List Char) : ∀ {s : Nat}, s < 2 ^ 64 → (sigInt s cs).1 < 2 ^ 64 := by
  induction cs with
  | nil => intro s h; exact h
  | cons c cs ih =>
    intro s h
    rw [sigInt]
    split
    · rename_i h'; exact ih h'
    · exact h

theorem sigFrac_lt (cs : List Char) : ∀ {s : Nat} {e : Int}, s < 2 ^ 64 → (sigFrac s e cs).1 < 2 ^ 64 := by
  induction cs with
  | nil => intro s e h; exact h
  | cons c cs ih =>
    intro s e h
    rw [sigFrac]
    split
    · rename_i h'; exact ih h'
    · exact h

theorem fromParts_finite {s g : Nat} {e : Int} (hs : s < 2 ^ 64) (h : fromParts s e = some g) : g < infinity :=
  scale_finite (ofNat_finite' hs) h

theorem readExp_finite {s g : Nat} {e : Int} {cs : List Char} (hs : s < 2 ^ 64) (h : readExp s e cs = some g) :
    g < infinity := by
  unfold readExp at h
  simp only at h
  split at h
  · exact fromParts_finite hs h
  · split at h
    · cases h
    · cases h; decide

theorem readMag_finite {g : Nat} {cs : List Char} (h : readMag cs = some g) : g < infinity := by
  unfold readMag at h
  have h1 := sigInt_lt (cs.takeWhile Text.isDigit) (s := 0) (by decide)
  simp only at h
  split at h
  · exact fromParts_finite h1 h
  · rename_i c r _
    split at h
    · have h2 := sigFrac_lt (r.takeWhile Text.isDigit) (e := (sigInt 0 (cs.takeWhile Text.isDigit)).2) h1
      unfold readTail at h
      split at h
      · exact fromParts_finite h2 h
      · exact readExp_finite h2 h
    · exact readExp_finite h1 h

/-- C103: no text at all is read as an infinity or as not a number. -/
theorem C103_finite (cs : List Char) (f : F64) (h : read cs = some f) : f.Finite := by
  unfold read at h
  split at h
  all_goals
    obtain ⟨n, hn, rfl⟩ := Option.map_eq_some_iff.1 h
    exact (make_parts (readMag_finite hn)).2.2

/-- Beside C103_finite: a literal out of range. -/
example : read "1e400".toList = none ∧ read "1e-400".toList = some ⟨0⟩ ∧ read "-1.5".toList = some ⟨0xbff8000000000000⟩ := by
  decide +kernel

/-- C103: but a literal that others may write for the largest double is rejected as out of range. -/
theorem C103_rejects : read "1.7976931348623158e308".toList = none ∧
    NearestDec (infinity - 1) 17976931348623158 292 ∧
    Literal "1.7976931348623158e308".toList false 17976931348623158 292 := by
  have hp : ∀ j, 0 < 10 ^ j := fun j => Nat.pow_pos (by decide)
  refine ⟨by decide +kernel, ?_, ?_⟩
  · refine Near.nearest ?_ (hp _)
    decide +kernel
  · exact ⟨['1'], '.' :: "7976931348623158".toList, "7976931348623158".toList, 'e' :: "308".toList, 308,
      ⟨⟨by simp, by decide⟩, fun r hr => by simp at hr⟩, .some ⟨by simp, by decide⟩,
      .plain (.inl rfl) ⟨by simp, by decide⟩, by decide, by decide, by decide⟩

example : (⟨0x7fefffffffffffff⟩ : F64).Finite ∧
    read (print ⟨0x7fefffffffffffff⟩) = some ⟨0x7fefffffffffffff⟩ := by decide +kernel

/-! ### C104: ordinary decimals -/

/-- Neighbours are close. -/
theorem value_gap_le {n : Nat} (hn : 2 ^ 52 ≤ n) : (value (n + 1) - value (n - 1)) * 2 ^ 52 ≤ 2 * value n := by
  obtain ⟨s, m, rfl, h, h'⟩ := pattern n
  have hm0 : 2 ^ 52 ≤ m := by omega
  rw [show s * 2 ^ 52 + m + 1 = s * 2 ^ 52 + (m + 1) by omega,
    value_at s m h (by omega), value_at s (m + 1) (by omega) (by omega)]
  have hp := Nat.two_pow_pos s
  have e0 : (m + 1) * 2 ^ s = m * 2 ^ s + 2 ^ s := by rw [Nat.add_mul, Nat.one_mul]
  have e3 : 2 ^ 52 * 2 ^ s ≤ m * 2 ^ s := Nat.mul_le_mul_right _ hm0
  have e1 : m * 2 ^ s ≤ value (s * 2 ^ 52 + m - 1) + 2 ^ s := by
    by_cases hm : s = 0 ∨ 2 ^ 52 ≤ m - 1
    · rw [show s * 2 ^ 52 + m - 1 = s * 2 ^ 52 + (m - 1) by omega, value_at s (m - 1) hm (by omega),
        ← Nat.succ_mul, show (m - 1).succ = m by omega]
      exact Nat.le_refl _
    · have hm' : m = 2 ^ 52 := by omega
      rw [show s * 2 ^ 52 + m - 1 = (s - 1) * 2 ^ 52 + (2 ^ 53 - 1) by omega,
        value_at (s - 1) (2 ^ 53 - 1) (by omega) (by omega), hm']
      have e2 : 2 ^ s = 2 * 2 ^ (s - 1) := by
        rw [← Nat.pow_succ', show (s - 1).succ = s by omega]
      rw [e2]
      have : 0 < 2 ^ (s - 1) := Nat.two_pow_pos _
      generalize 2 ^ (s - 1) = t at *
      omega
  generalize value (s * 2 ^ 52 + m - 1) = z at *
  generalize (m + 1) * 2 ^ s = y at *
  generalize m * 2 ^ s = u at *
  generalize 2 ^ s = t at *
  omega

theorem ordinary_big : 2 ^ 54 * fives < 10 ^ 1052 := by unfold fives; decide +kernel

/-- Two decimals with at most 15 digits and the same exponent have different nearest doubles. -/
theorem near15 {n s t i : Nat} (hn : 2 ^ 52 ≤ n) (hs : s < 10 ^ 15) (h : Inside n s i) (h' : Inside n t i) : s = t := by
  have hw : 0 < 10 ^ i := Nat.pow_pos (by decide)
  have hg := value_gap_le hn
  have hlt1 := value_lt (m := n - 1) (n := n) (by omega)
  have hlt2 := value_succ_lt n
  by_cases hst : s = t
  · exact hst
  exfalso
  have hstep : s * 10 ^ i + 10 ^ i ≤ t * 10 ^ i ∨ t * 10 ^ i + 10 ^ i ≤ s * 10 ^ i := by
    rcases Nat.lt_or_gt_of_ne hst with hl | hl
    · left; rw [← Nat.succ_mul]; exact Nat.mul_le_mul_right _ hl
    · right; rw [← Nat.succ_mul]; exact Nat.mul_le_mul_right _ hl
  obtain ⟨h1, h2⟩ := h
  obtain ⟨h1', h2'⟩ := h'
  have e3 : (value n + value (n + 1)) * fives =
      (value (n - 1) + value n) * fives + (value (n + 1) - value (n - 1)) * fives := by
    rw [← Nat.add_mul]; congr 1; omega
  have e4 : (value (n + 1) - value (n - 1)) * fives * 2 ^ 52 ≤ 2 * (value n * fives) := by
    rw [Nat.mul_right_comm, ← Nat.mul_assoc]
    exact Nat.mul_le_mul_right _ hg
  have e5 : value n * fives ≤ (value (n - 1) + value n) * fives := Nat.mul_le_mul_right _ (by omega)
  have e6 : s * 10 ^ i ≤ 10 ^ 15 * 10 ^ i := Nat.mul_le_mul_right _ (by omega)
  have hne : n ≠ 0 := by omega
  generalize (value n + value (n + 1)) * fives = U at *
  generalize (value (n - 1) + value n) * fives = L at *
  generalize (value (n + 1) - value (n - 1)) * fives = G at *
  generalize value n * fives = v at *
  generalize s * 10 ^ i = a at *
  generalize t * 10 ^ i = c at *
  generalize 10 ^ i = w at *
  omega

/-- Size of the doubles nearest to decimals with an exponent of at least -22. -/
theorem normal_of_near {n s : Nat} {e : Int} (hs : 0 < s) (he : -22 ≤ e) (h : NearestDec n s e) : 2 ^ 52 ≤ n := by
  have hin := inside_of_nearestDec (by omega) h
  obtain ⟨_, h2⟩ := hin
  by_cases hh : 2 ^ 52 ≤ n
  · exact hh
  exfalso
  have e1 : 10 ^ 1052 ≤ s * 10 ^ (e + 1074).toNat :=
    Nat.le_trans (Nat.pow_le_pow_right (by decide) (by omega)) (Nat.le_mul_of_pos_left _ hs)
  have e2 : (value n + value (n + 1)) * fives ≤ 2 ^ 54 * fives := by
    refine Nat.mul_le_mul_right _ ?_
    rw [value_small (by omega)]
    have : value (n + 1) ≤ value (2 ^ 52) := value_le (by omega)
    have h52 : value (2 ^ 52) = 2 ^ 52 := by decide +kernel
    omega
  have := ordinary_big
  generalize (value n + value (n + 1)) * fives = A at *
  generalize s * 10 ^ (e + 1074).toNat = B at *
  generalize 2 ^ 54 * fives = C at *
  generalize 10 ^ 1052 = D at *
  omega

/-- The shortest decimal of the double nearest to a decimal with at most 15 digits is that decimal. -/
theorem shortest15 {n s : Nat} {e : Int} (hs : 0 < s) (hs' : s < 10 ^ 15) (he : -22 ≤ e) (h : NearestDec n s e)
    (hf : n < infinity) : e ≤ (shortest n).2 ∧ s = (shortest n).1 * 10 ^ ((shortest n).2 - e).toNat := by
  have hn := normal_of_near hs he h
  have hn0 : 0 < n := by omega
  have hin := inside_of_nearestDec (by omega) h
  obtain ⟨g1, g2, _⟩ := search_found hn0 hf
  have hk := g2 _ _ hin
  unfold shortest
  simp only
  generalize (search n 1400).1 = d at *
  generalize (search n 1400).2 = i at *
  refine ⟨by omega, ?_⟩
  refine near15 hn hs' hin ?_
  unfold Inside at g1 ⊢
  rw [Nat.mul_assoc, ← Nat.pow_add, show ((i : Int) - 1074 - e).toNat + (e + 1074).toNat = i by omega]
  exact g1

/-- C104: a decimal with at most 15 digits and an exponent of at most 22 is written, after it has been read,
as the same number. -/
theorem C104_decimal (cs : List Char) (neg : Bool) (s : Nat) (e : Int) (h : Literal cs neg s e) (hs : s < 10 ^ 15)
    (he : e.natAbs ≤ 22) (hl : cs.length ≤ 2 ^ 29) :
    ∃ f : F64, read cs = some f ∧ f.Finite ∧ ∃ s' e', Literal (print f) neg s' e' ∧ SameNumber s e s' e' := by
  obtain ⟨f, h1, h2, h3, h4⟩ := C102_read cs neg s e h (by omega) he hl
  refine ⟨f, h1, h2, ?_⟩
  obtain ⟨s', e', g1, g2, _⟩ := C101_text f h2
  rw [h3] at g1
  refine ⟨s', e', g1, ?_⟩
  by_cases hs0 : s = 0
  · subst hs0
    have hm : f.mag = 0 := nearestDec_unique h4 (nearestDec_zero e)
    have hl' : Literal (print f) f.neg 0 (-1) := by
      have hf' : f.mag < infinity := h2
      unfold print
      rw [if_pos hf', hm]
      cases f.neg with
      | true => exact literal_sign literal_zero
      | false => exact literal_zero
    obtain ⟨_, rfl, rfl⟩ := Literal.unique g1 hl'
    simp [SameNumber]
  · have hf' : f.mag < infinity := h2
    obtain ⟨k1, k2⟩ := shortest15 (by omega) hs (by omega) h4 hf'
    have hn : 0 < f.mag := by have := normal_of_near (by omega) (by omega) h4; omega
    obtain ⟨s2, e2, l1, l2, _⟩ := printMag_spec hn hf'
    have hl' : Literal (print f) f.neg s2 e2 := by
      unfold print
      rw [if_pos hf']
      cases f.neg with
      | true => exact literal_sign l1
      | false => exact l1
    obtain ⟨_, rfl, rfl⟩ := Literal.unique g1 hl'
    unfold SameNumber at l2 ⊢
    generalize (shortest f.mag).1 = d at *
    generalize (shortest f.mag).2 = k at *
    have hp : 0 < 10 ^ (-k).toNat := Nat.pow_pos (by decide)
    refine Nat.eq_of_mul_eq_mul_right hp ?_
    have e1 : s * 10 ^ e.toNat * 10 ^ (-k).toNat = d * 10 ^ k.toNat * 10 ^ (-e).toNat := by
      rw [k2, Nat.mul_assoc, Nat.mul_assoc, Nat.mul_assoc, ← Nat.pow_add, ← Nat.pow_add, ← Nat.pow_add,
        show (k - e).toNat + (e.toNat + (-k).toNat) = k.toNat + (-e).toNat by omega]
    calc s * 10 ^ e.toNat * 10 ^ (-e').toNat * 10 ^ (-k).toNat
        = (s * 10 ^ e.toNat * 10 ^ (-k).toNat) * 10 ^ (-e').toNat := by ac_rfl
      _ = (d * 10 ^ k.toNat * 10 ^ (-e').toNat) * 10 ^ (-e).toNat := by rw [e1]; ac_rfl
      _ = s' * 10 ^ e'.toNat * 10 ^ (-e).toNat * 10 ^ (-k).toNat := by rw [l2]; ac_rfl

/-- C104: a decimal of up to 22 places after the point, whose digits are at most 9·10^14, is read as a double
that is written and read unchanged from then on. -/
theorem C104_stable (cs : List Char) (neg : Bool) (s : Nat) (e : Int) (h : Literal cs neg s e)
    (hs : s ≤ 9 * 10 ^ 14) (he : -22 ≤ e) (he' : e ≤ 0) (hl : cs.length ≤ 2 ^ 29) :
    ∃ f : F64, read cs = some f ∧ Tame f ∧ read (print f) = some f := by
  obtain ⟨f, h1, h2, h3, h4⟩ := C102_read cs neg s e h (by omega) (by omega) hl
  have hf' : f.mag < infinity := h2
  have ht : Tame f := by
    refine ⟨h2, f.neg, ?_⟩
    by_cases hs0 : s = 0
    · subst hs0
      have hm : f.mag = 0 := nearestDec_unique h4 (nearestDec_zero e)
      refine ⟨0, -1, ?_, by decide, by decide⟩
      unfold print
      rw [if_pos hf', hm]
      cases f.neg with
      | true => exact literal_sign literal_zero
      | false => exact literal_zero
    · obtain ⟨k1, k2⟩ := shortest15 (by omega) (by omega) he h4 hf'
      have hn : 0 < f.mag := by have := normal_of_near (by omega) he h4; omega
      obtain ⟨s2, e2, l1, _, _, _, _, hc, _⟩ := printMag_spec hn hf'
      have hl' : Literal (print f) f.neg s2 e2 := by
        unfold print
        rw [if_pos hf']
        cases f.neg with
        | true => exact literal_sign l1
        | false => exact l1
      refine ⟨s2, e2, hl', ?_⟩
      generalize (shortest f.mag).1 = d at *
      generalize (shortest f.mag).2 = k at *
      have hd : 0 < d := by
        rcases Nat.eq_zero_or_pos d with rfl | h
        · simp at k2; omega
        · exact h
      have hk14 : (k - e).toNat ≤ 14 := by
        by_cases hh : (k - e).toNat ≤ 14
        · exact hh
        · have : 10 ^ 15 ≤ s := by
            rw [k2]
            exact Nat.le_trans (Nat.pow_le_pow_right (by decide) (by omega)) (Nat.le_mul_of_pos_left _ hd)
          omega
      have hds : d ≤ s := by rw [k2]; exact Nat.le_mul_of_pos_right _ (Nat.pow_pos (by decide))
      rcases hc with ⟨rfl, rfl⟩ | ⟨hk0, rfl, rfl⟩
      · exact ⟨by omega, by omega⟩
      · refine ⟨?_, by decide⟩
        have e1 : d * 10 ^ k.toNat ≤ s := by
          rw [k2]
          exact Nat.mul_le_mul_left _ (Nat.pow_le_pow_right (by decide) (by omega))
        rw [Nat.pow_succ, ← Nat.mul_assoc]
        omega
  refine ⟨f, h1, ht, ?_⟩
  obtain ⟨_, neg', s', e', l1, l2, l3⟩ := ht
  obtain ⟨s2, e2, m1, m2, _, m4⟩ := C101_text f h2
  obtain ⟨rfl, rfl, rfl⟩ := Literal.unique l1 m1
  obtain ⟨g, g1, g2, g3, g4⟩ := C102_read _ _ _ _ l1 l2 l3 (by omega)
  rw [g1, finite_ext g3 (nearestDec_unique g4 m2)]

example : ∃ f : F64, read "-12.50E+3".toList = some f ∧ f.Finite ∧
    ∃ s' e', Literal (print f) true s' e' ∧ SameNumber 1250 1 s' e' :=
  C104_decimal _ _ _ _ literal_example (by decide) (by decide) (by decide)

/-- The literal `1234567.890`. -/
theorem literal_example' : Literal "1234567.890".toList false 1234567890 (-3) :=
  ⟨"1234567".toList, '.' :: "890".toList, "890".toList, [], 0, ⟨⟨by simp, by decide⟩, fun r hr => by simp at hr⟩,
    .some ⟨by simp, by decide⟩, .none, by decide, by decide, by decide⟩

example : ∃ f : F64, read "1234567.890".toList = some f ∧ Tame f ∧ read (print f) = some f :=
  C104_stable _ _ _ _ literal_example' (by decide) (by decide) (by decide) (by decide)

end Double
end Bsp
