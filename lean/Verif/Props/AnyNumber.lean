/-
C107: every number literal, however long and with whatever exponent: what it is read as, and when it is rejected.
-/
import Verif.Props.DoubleError

namespace Bsp
namespace Double
open Spec Gram

/-! ### Digits -/

theorem dig_le {c : Char} (h : '0' ≤ c ∧ c ≤ '9') : c.toNat - '0'.toNat ≤ 9 := by
  have h1 : c.toNat ≤ 57 := h.2
  have : '0'.toNat = 48 := by decide
  omega

theorem ofDigitChars_bounds (ds : List Char) (h : ∀ c ∈ ds, '0' ≤ c ∧ c ≤ '9') (s : Nat) :
    s * 10 ^ ds.length ≤ Nat.ofDigitChars 10 ds s ∧ Nat.ofDigitChars 10 ds s < (s + 1) * 10 ^ ds.length := by
  induction ds generalizing s with
  | nil => simp
  | cons c ds ih =>
    rw [Nat.ofDigitChars_cons, List.length_cons, Nat.pow_succ]
    have hd := dig_le (h c (by simp))
    generalize c.toNat - '0'.toNat = d at *
    obtain ⟨h1, h2⟩ := ih (fun x hx => h x (List.mem_cons_of_mem _ hx)) (10 * s + d)
    constructor
    · refine Nat.le_trans ?_ h1
      rw [Nat.mul_comm (10 ^ _), ← Nat.mul_assoc]
      exact Nat.mul_le_mul_right _ (by omega)
    · refine Nat.lt_of_lt_of_le h2 ?_
      rw [Nat.mul_comm (10 ^ _), ← Nat.mul_assoc]
      exact Nat.mul_le_mul_right _ (by omega)

theorem sigInt_cases (ds : List Char) (h : ∀ c ∈ ds, '0' ≤ c ∧ c ≤ '9') (s : Nat) :
    sigInt s ds = (Nat.ofDigitChars 10 ds s, 0) ∨ ∃ s1 k, sigInt s ds = (s1, k) ∧ 2 ^ 60 ≤ s1 ∧ k ≤ ds.length ∧
      s1 * 10 ^ k ≤ Nat.ofDigitChars 10 ds s ∧ Nat.ofDigitChars 10 ds s < (s1 + 1) * 10 ^ k := by
  induction ds generalizing s with
  | nil => exact .inl (by simp [sigInt])
  | cons c ds ih =>
    rw [sigInt]
    split
    · rw [digit_step, Nat.ofDigitChars_cons]
      rcases ih (fun x hx => h x (List.mem_cons_of_mem _ hx)) (10 * s + (c.toNat - '0'.toNat)) with h1 | ⟨s1, k, h1, h2, h3, h4⟩
      · exact .inl h1
      · exact .inr ⟨s1, k, h1, h2, by simp only [List.length_cons]; omega, h4⟩
    · rename_i hbig
      rw [digit_step] at hbig
      have hd := dig_le (h c (by simp))
      exact .inr ⟨s, ds.length + 1, rfl, by omega, Nat.le_refl _, ofDigitChars_bounds (c :: ds) h s⟩

theorem sigFrac_cases (fr : List Char) (h : ∀ c ∈ fr, '0' ≤ c ∧ c ≤ '9') (s : Nat) (e : Int) :
    ∃ (j s2 : Nat), sigFrac s e fr = (s2, e - (j : Int)) ∧ j ≤ fr.length ∧ s * 10 ^ j ≤ s2 ∧ s2 < (s + 1) * 10 ^ j ∧
      ((j = fr.length ∧ s2 = Nat.ofDigitChars 10 fr s) ∨ (2 ^ 60 ≤ s2 ∧
        s2 * 10 ^ (fr.length - j) ≤ Nat.ofDigitChars 10 fr s ∧
        Nat.ofDigitChars 10 fr s < (s2 + 1) * 10 ^ (fr.length - j))) := by
  induction fr generalizing s e with
  | nil => exact ⟨0, s, by simp [sigFrac], Nat.le_refl _, by simp, by simp, .inl ⟨rfl, by simp⟩⟩
  | cons c fr ih =>
    have hd := dig_le (h c (by simp))
    rw [sigFrac]
    split
    · rw [digit_step, Nat.ofDigitChars_cons]
      obtain ⟨j, s2, h1, h2, h3, h4, h5⟩ :=
        ih (fun x hx => h x (List.mem_cons_of_mem _ hx)) (10 * s + (c.toNat - '0'.toNat)) (e - 1)
      generalize c.toNat - '0'.toNat = d at *
      refine ⟨j + 1, s2, ?_, by simp only [List.length_cons]; omega, ?_, ?_, ?_⟩
      · rw [h1]; congr 1; omega
      · refine Nat.le_trans ?_ h3
        rw [Nat.pow_succ, Nat.mul_comm (10 ^ _), ← Nat.mul_assoc]
        exact Nat.mul_le_mul_right _ (by omega)
      · refine Nat.lt_of_lt_of_le h4 ?_
        rw [Nat.pow_succ, Nat.mul_comm (10 ^ _), ← Nat.mul_assoc]
        exact Nat.mul_le_mul_right _ (by omega)
      · rcases h5 with ⟨h5, h6⟩ | h5
        · exact .inl ⟨by rw [h5]; rfl, h6⟩
        · refine .inr ?_
          rw [List.length_cons, Nat.add_sub_add_right]
          exact h5
    · rename_i hbig
      rw [digit_step] at hbig
      refine ⟨0, s, by simp, Nat.zero_le _, by simp, by simp, .inr ⟨by omega, ?_⟩⟩
      rw [Nat.sub_zero]
      exact ofDigitChars_bounds (c :: fr) h s

/-- Two numbers in the same short interval are close. -/
theorem close_of_interval {a b s w : Nat} (hs : 2 ^ 60 ≤ s) (h1 : s * w ≤ a) (h2 : a < (s + 1) * w) (h3 : s * w ≤ b)
    (h4 : b < (s + 1) * w) : Close 1 a 1 b 1 := by
  have key : ∀ {a b : Nat}, a < (s + 1) * w → s * w ≤ b → Below 1 a 1 b 1 := by
    intro a b h2 h3
    unfold Below
    simp only [Nat.mul_one, Nat.pow_one]
    calc a * 2 ^ 53 ≤ (s + 1) * w * 2 ^ 53 := Nat.mul_le_mul_right _ (Nat.le_of_lt h2)
      _ = (s + 1) * 2 ^ 53 * w := by rw [Nat.mul_right_comm]
      _ ≤ s * (2 ^ 53 + 1) * w := Nat.mul_le_mul_right _ (by omega)
      _ = s * w * (2 ^ 53 + 1) := by rw [Nat.mul_right_comm]
      _ ≤ b * (2 ^ 53 + 1) := Nat.mul_le_mul_right _ h3
  exact ⟨key h2 h3, key h4 h1⟩

theorem Close.refl (a b : Nat) : Close 1 a b a b := by
  have : Below 1 a b a b := Nat.mul_le_mul_left _ (by decide)
  exact ⟨this, this⟩

/-- The digits that fit are close to all of them. -/
theorem sig_close (ds fr : List Char) (hd : ∀ c ∈ ds, '0' ≤ c ∧ c ≤ '9') (hf : ∀ c ∈ fr, '0' ≤ c ∧ c ≤ '9') :
    ∃ (s2 u : Nat), sigFrac (sigInt 0 ds).1 (sigInt 0 ds).2 fr = (s2, (u : Int) - fr.length) ∧ s2 < 2 ^ 64 ∧
      u ≤ ds.length + fr.length ∧ Close 1 (s2 * 10 ^ u) 1 (Nat.ofDigitChars 10 (ds ++ fr) 0) 1 := by
  have hlt : (sigFrac (sigInt 0 ds).1 (sigInt 0 ds).2 fr).1 < 2 ^ 64 := sigFrac_lt _ (sigInt_lt _ (by decide))
  rw [Nat.ofDigitChars_append]
  rcases sigInt_cases ds hd 0 with h1 | ⟨s1, k, h1, h2, h3, h4, h5⟩
  · rw [h1] at hlt ⊢
    generalize Nat.ofDigitChars 10 ds 0 = s at *
    obtain ⟨j, s2, g1, g2, g3, g4, g5⟩ := sigFrac_cases fr hf s ((0 : Nat) : Int)
    rw [g1] at hlt
    refine ⟨s2, fr.length - j, ?_, hlt, by omega, ?_⟩
    · rw [g1]; congr 1; omega
    · rcases g5 with ⟨rfl, rfl⟩ | ⟨g5, g6, g7⟩
      · rw [Nat.sub_self, Nat.pow_zero, Nat.mul_one]; exact Close.refl _ _
      · exact close_of_interval g5 (Nat.le_refl _) (Nat.mul_lt_mul_of_pos_right (by omega) (Nat.pow_pos (by decide))) g6 g7
  · rw [h1] at hlt ⊢
    obtain ⟨j, s2, g1, g2, g3, g4, _⟩ := sigFrac_cases fr hf s1 (k : Int)
    rw [g1] at hlt
    refine ⟨s2, k + fr.length - j, ?_, hlt, by omega, ?_⟩
    · rw [g1]; congr 1; omega
    · obtain ⟨b1, b2⟩ := ofDigitChars_bounds fr hf (Nat.ofDigitChars 10 ds 0)
      generalize Nat.ofDigitChars 10 ds 0 = s at *
      have e : 10 ^ (k + fr.length) = 10 ^ j * 10 ^ (k + fr.length - j) := by rw [← Nat.pow_add]; congr 1; omega
      refine close_of_interval (w := 10 ^ (k + fr.length)) h2 ?_ ?_ ?_ ?_
      · rw [e, ← Nat.mul_assoc]; exact Nat.mul_le_mul_right _ g3
      · rw [e, ← Nat.mul_assoc]; exact Nat.mul_lt_mul_of_pos_right g4 (Nat.pow_pos (by decide))
      · rw [Nat.pow_add, ← Nat.mul_assoc]; exact Nat.le_trans (Nat.mul_le_mul_right _ h4) b1
      · rw [Nat.pow_add, ← Nat.mul_assoc]; exact Nat.lt_of_lt_of_le b2 (Nat.mul_le_mul_right _ (by omega))

/-! ### Exponents -/

theorem scale_zero {c : Nat} {e : Int} (hc : 0 < c) : scale c 0 e = some 0 := by
  obtain ⟨c, rfl⟩ : ∃ d, c = d + 1 := ⟨c - 1, by omega⟩
  have m0 : mul 0 (pow10 e.natAbs) = 0 := by
    unfold mul; rw [value_zero, rnd_value (n := 0) unit_pos (by simp [value_zero])]; rfl
  have d0 : div 0 (pow10 e.natAbs) = 0 := by
    unfold div; rw [value_zero, rnd_value (n := 0) (pow10_pos _) (by simp [value_zero])]; rfl
  rw [scale, m0, d0]
  repeat' split
  all_goals first | rfl | omega | skip
  all_goals (rename_i h; revert h; decide)

theorem fromParts_zero (e : Int) : fromParts 0 e = some 0 := by
  unfold fromParts
  rw [ofNat_zero]
  exact scale_zero (by omega)

theorem ofNat_ne_zero {s : Nat} (h0 : 0 < s) (hs : s < 2 ^ 64) : ofNat s ≠ 0 := by
  intro hz
  have := (ofNat_below h0 hs).2
  unfold Below at this
  rw [hz, value_zero] at this
  have h1 : 0 < s * unit := Nat.mul_pos h0 unit_pos
  simp only [Nat.pow_one, Nat.mul_one, Nat.zero_mul] at this
  omega

theorem fromParts_high {s : Nat} {e : Int} (h0 : 0 < s) (hs : s < 2 ^ 64) (he : 308 < e) : fromParts s e = none := by
  unfold fromParts
  rw [scale, if_neg (by omega), if_neg (ofNat_ne_zero h0 hs), if_pos (by omega)]

theorem ofNat_le {s : Nat} (hs : s < 2 ^ 64) : ofNat s ≤ ofNat (2 ^ 64) := by
  unfold ofNat
  exact rnd_mono (by decide) (by decide) (Nat.mul_le_mul_right _ (Nat.mul_le_mul_right _ (Nat.le_of_lt hs)))

theorem div_mono {x y p q : Nat} (hxy : x ≤ y) (hp : 0 < value p) (hpq : p ≤ q) : div x q ≤ div y p := by
  unfold div
  have hq := Nat.lt_of_lt_of_le hp (value_le hpq)
  exact rnd_mono hq hp (Nat.mul_le_mul (Nat.mul_le_mul_right _ (value_le hxy)) (value_le hpq))

theorem pow10_mono {j k : Nat} (h : j ≤ k) : pow10 j ≤ pow10 k := by
  unfold pow10
  exact rnd_mono (by decide) (by decide)
    (Nat.mul_le_mul_right _ (Nat.mul_le_mul_right _ (Nat.pow_le_pow_right (by decide) h)))

theorem div_tiny : div (div (ofNat (2 ^ 64)) (pow10 308)) (pow10 36) = 0 := by decide +kernel

theorem fromParts_deep {s : Nat} {e : Int} (hs : s < 2 ^ 64) (he : e ≤ -344) : fromParts s e = some 0 := by
  rcases Nat.eq_zero_or_pos s with rfl | h0
  · exact fromParts_zero e
  unfold fromParts
  rw [scale, if_neg (by omega), if_neg (ofNat_ne_zero h0 hs), if_neg (by omega)]
  have hx := div_mono (ofNat_le hs) (pow10_pos 308) (Nat.le_refl _)
  generalize div (ofNat s) (pow10 308) = x at *
  obtain ⟨c, hc⟩ : ∃ c, e.natAbs / 308 = c + 1 := ⟨e.natAbs / 308 - 1, by omega⟩
  have hz : ∀ k, 36 ≤ k → div x (pow10 k) = 0 := by
    intro k hk
    have := div_mono hx (pow10_pos 36) (pow10_mono hk)
    rw [div_tiny] at this
    omega
  rw [hc, scale]
  split
  · rw [if_neg (by omega), hz _ (by omega)]
  · split
    · rename_i h; rw [h]
    · rw [if_neg (by omega), hz _ (by decide)]
      exact scale_zero (by omega)

theorem fromParts_saturate {s : Nat} (hs : s < 2 ^ 64) (e : Int) : fromParts s (saturate e) = fromParts s e := by
  have hsat : saturate e = e ∨ (saturate e = 2 ^ 31 - 1 ∧ 2 ^ 31 ≤ e) ∨ (saturate e = -2 ^ 31 ∧ e < -2 ^ 31) := by
    unfold saturate; omega
  rcases Nat.eq_zero_or_pos s with rfl | h0
  · rw [fromParts_zero, fromParts_zero]
  rcases hsat with h | ⟨h, h'⟩ | ⟨h, h'⟩
  · rw [h]
  · rw [h, fromParts_high h0 hs (by omega), fromParts_high h0 hs (by omega)]
  · rw [h, fromParts_deep hs (by omega), fromParts_deep hs (by omega)]

theorem expVal_none (ds : List Char) (s : Nat) (h : expVal s ds = none) : 2 ^ 31 ≤ Nat.ofDigitChars 10 ds s := by
  apply Decidable.byContradiction
  intro hlt
  rw [expVal_eq _ _ (by omega)] at h
  cases h

theorem expVal_some (ds : List Char) (s x : Nat) (h : expVal s ds = some x) : x = Nat.ofDigitChars 10 ds s := by
  induction ds generalizing s with
  | nil => simp [expVal] at h; simp [h]
  | cons c ds ih =>
    rw [expVal] at h
    split at h
    · rw [digit_step] at h
      rw [Nat.ofDigitChars_cons]; exact ih _ h
    · cases h

/-- The exponent is added, whatever it is. -/
theorem readTail_any {et : List Char} {x : Int} (h : ExpText et x) (s : Nat) (hs : s < 2 ^ 64) (e : Int)
    (he : e.natAbs ≤ 2 ^ 30) : readTail s e et = fromParts s (e + x) := by
  cases h with
  | none => simp [readTail]
  | plain hc hd =>
    have hh := head_digit hd
    rw [readTail, readExp]
    simp only [hh.1, hh.2, or_self, if_false, ne_eq, not_false_eq_true, if_true, and_true]
    split
    · rename_i y hy
      rw [expVal_some _ _ _ hy, fromParts_saturate hs]
    · rename_i hy
      have := expVal_none _ _ hy
      split
      · rename_i h0
        rw [fromParts_high (by omega) hs (by omega)]
      · rename_i h0
        rw [show s = 0 by omega, fromParts_zero]
  | plus hc hd =>
    rw [readTail, readExp]
    simp only [List.head?_cons, Option.some.injEq, Char.reduceEq, or_true, if_true, List.tail_cons, ne_eq,
      not_false_eq_true, and_true]
    split
    · rename_i y hy
      rw [expVal_some _ _ _ hy, fromParts_saturate hs]
    · rename_i hy
      have := expVal_none _ _ hy
      split
      · rename_i h0
        rw [fromParts_high (by omega) hs (by omega)]
      · rename_i h0
        rw [show s = 0 by omega, fromParts_zero]
  | minus hc hd =>
    rw [readTail, readExp]
    simp only [List.head?_cons, true_or, if_true, List.tail_cons, ne_eq, not_true_eq_false, if_false, and_false]
    split
    · rename_i y hy
      rw [expVal_some _ _ _ hy, fromParts_saturate hs]; rfl
    · rename_i hy
      have := expVal_none _ _ hy
      rw [fromParts_deep hs (by omega)]

/-- A literal is read as the digits that fit, moved by `u` places. -/
theorem read_any {cs : List Char} {neg : Bool} {s : Nat} {e : Int} (h : Literal cs neg s e) (hl : cs.length ≤ 2 ^ 29) :
    ∃ (s2 u : Nat), read cs = (fromParts s2 (e + u)).map (F64.make neg) ∧ s2 < 2 ^ 64 ∧ Close 1 (s2 * 10 ^ u) 1 s 1 := by
  obtain ⟨ds, ft, fr, et, x, hds, hft, het, rfl, rfl, rfl⟩ := h
  have hlen : ds.length + fr.length ≤ 2 ^ 29 := by
    have : fr.length ≤ ft.length := by cases hft <;> simp
    simp only [List.length_append] at hl
    omega
  have hfr : ∀ c ∈ fr, '0' ≤ c ∧ c ≤ '9' := by
    cases hft with
    | none => simp
    | some h => exact h.2
  obtain ⟨s2, u, h1, h2, h3, h4⟩ := sig_close ds fr hds.1.2 hfr
  refine ⟨s2, u, ?_, h2, h4⟩
  have hmag : readMag (ds ++ ft ++ et) = fromParts s2 (x - fr.length + u) := by
    have ht := readTail_any het s2 h2 ((u : Int) - fr.length) (by omega)
    rw [show (u : Int) - fr.length + x = x - fr.length + u by omega] at ht
    obtain ⟨g1, g2⟩ := span_digits hds.1.2 (stops_frac hft het)
    rw [List.append_assoc]
    unfold readMag
    rw [g1, g2]
    cases hft with
    | none =>
      rw [sigFrac] at h1
      obtain ⟨h5, h6⟩ := Prod.mk.inj h1
      simp only [List.nil_append]
      rw [h5, h6]
      cases et with
      | nil => exact ht
      | cons c r =>
        have hc : c ≠ '.' := by have := expText_not_dot het; simpa using this
        simp only [if_neg hc]
        exact ht
    | some hd =>
      simp only [List.cons_append, if_true]
      obtain ⟨h3, h4⟩ := span_digits hd.2 (stops_exp het)
      rw [h3, h4, h1]
      exact ht
  unfold read
  cases neg with
  | true => simpa using congrArg (Option.map (F64.make true)) hmag
  | false =>
    have hh : (ds ++ ft ++ et).head? ≠ some '-' := by
      have := (head_digit hds.1).1
      cases ds with
      | nil => exact absurd rfl hds.1.1
      | cons c t => simpa using this
    simp only [Bool.false_eq_true, if_false, List.nil_append]
    rw [if_neg hh, hmag]

/-! ### How near, and what is rejected -/

theorem small_exact' : ∀ s < 3, ∀ i : Nat, i < 35 →
    fromParts s (-309 - (i : Int)) = some (roundPat (s * unit) (10 ^ (309 + i))) := by
  decide +kernel

/-- Two divisions. -/
theorem fromParts_two {s n g : Nat} {e : Int} (hs : s < 2 ^ 64) (he : e < -308) (he' : -344 < e)
    (hn : NearestDec n s e) (h : fromParts s e = some g) : dist g n ≤ 4 := by
  have hp : ∀ j, 0 < 10 ^ j := fun j => Nat.pow_pos (by decide)
  have hgf := fromParts_finite hs h
  have hnear := Near.of_nearest hn (hp _)
  obtain ⟨i, hi, rfl⟩ : ∃ i : Nat, i < 35 ∧ e = -309 - (i : Int) := ⟨(-309 - e).toNat, by omega, by omega⟩
  have e1 : (-309 - (i : Int)).toNat = 0 := by omega
  have e2 : (-(-309 - (i : Int))).toNat = 309 + i := by omega
  rw [e1, e2, Nat.pow_zero, Nat.mul_one] at hnear
  by_cases h3 : s < 3
  · rw [small_exact' s h3 i hi] at h
    cases h
    have := Near.unique (near_roundPat (s * unit) _ (hp (309 + i))) hnear (hp _)
    rw [this]
    unfold dist; omega
  have h0 : 0 < s := by omega
  unfold fromParts at h
  have hc : (-309 - (i : Int)).natAbs / 308 + 1 = 2 := by omega
  rw [hc, scale, if_neg (by omega), if_neg (ofNat_ne_zero h0 hs), if_neg (by omega)] at h
  have hx := ofNat_below h0 hs
  have hd : div (ofNat s) (pow10 308) < infinity := Nat.lt_of_le_of_lt (div_le (ofNat_finite' hs)) (ofNat_finite' hs)
  have hd1 : Close 1 (value (div (ofNat s) (pow10 308))) 1 (value (ofNat s) * unit) (value (pow10 308)) :=
    (rnd_near (pow10_pos 308) hd).below (pow10_pos 308) (div308 (by omega))
  have hd2 := div_close (a := s) (c := 10 ^ 308) hx (pow10_below (Nat.le_refl _)) (pow10_pos _) (hp _)
  have hv : 0 < value (ofNat s) * unit := by
    have h1 := div308 (s := s) (by omega)
    have := pow10_pos 308
    omega
  have hd3 := hd1.trans' hd2 hv (pow10_pos _)
  generalize div (ofNat s) (pow10 308) = x at *
  rw [scale, if_pos (by omega), if_neg (by omega)] at h
  cases h
  have e3 : (-309 - (i : Int) + 308).natAbs = i + 1 := by omega
  rw [e3] at hgf ⊢
  have hq := pow10_below (k := i + 1) (by omega)
  have hq0 := pow10_pos (i + 1)
  have hg := rnd_near hq0 (a := value x * unit) hgf
  refine Close.steps (k := 4) (by decide) hq0 (hp (309 + i)) ?_ hnear hg
  have hu := unit_pos
  have hpe : 10 ^ (309 + i) = 10 ^ 308 * 10 ^ (i + 1) := by
    rw [← Nat.pow_add]; congr 1; omega
  have b1 := (hd3.1.mul hq.2.inv).scale unit
  have b2 := (hd3.2.mul hq.1.inv).scale unit
  simp only [Nat.one_mul, Nat.mul_one] at b1 b2
  rw [hpe]
  have h308 : 0 < 10 ^ 308 := hp _
  have hP : 0 < 10 ^ 308 * 10 ^ (i + 1) := by rw [← hpe]; exact hp _
  generalize 10 ^ 308 = P at *
  generalize 10 ^ (i + 1) = Q at *
  have hPu : 0 < P * (Q * unit) := by rw [← Nat.mul_assoc]; exact Nat.mul_pos hP hu
  exact ⟨b1.congr hq0 hPu rfl (by ac_rfl), b2.congr hPu hq0 (by ac_rfl) rfl⟩

theorem tiny_zero : roundPat (2 ^ 64 * unit) (10 ^ 344) = 0 := by decide +kernel

theorem nearestDec_deep {n s : Nat} {e : Int} (hs : s < 2 ^ 64) (he : e ≤ -344) (hn : NearestDec n s e) : n = 0 := by
  have hp : ∀ j, 0 < 10 ^ j := fun j => Nat.pow_pos (by decide)
  have hnear := Near.of_nearest hn (hp _)
  have e1 : e.toNat = 0 := by omega
  rw [e1, Nat.pow_zero, Nat.mul_one] at hnear
  have gen : ∀ k, k ≤ (-e).toNat → n ≤ roundPat (2 ^ 64 * unit) (10 ^ k) := by
    intro k hk
    refine hnear.mono (near_roundPat _ (10 ^ k) (hp k)) (hp _) (hp _) ?_
    exact Nat.mul_le_mul (Nat.mul_le_mul_right _ (Nat.le_of_lt hs)) (Nat.pow_le_pow_right (by decide) hk)
  have := gen 344 (by omega)
  rw [tiny_zero] at this
  omega

theorem huge_infinite : infinity ≤ roundPat (10 ^ 309 * unit) 1 := by decide +kernel

theorem nearestDec_high {n s : Nat} {e : Int} (h0 : 0 < s) (he : 308 < e) (hn : NearestDec n s e) : infinity ≤ n := by
  have hp : ∀ j, 0 < 10 ^ j := fun j => Nat.pow_pos (by decide)
  have hnear := Near.of_nearest hn (hp _)
  have e1 : (-e).toNat = 0 := by omega
  rw [e1, Nat.pow_zero] at hnear
  have gen : ∀ k, k ≤ e.toNat → roundPat (10 ^ k * unit) 1 ≤ n := by
    intro k hk
    refine (near_roundPat _ 1 (by decide)).mono hnear (by decide) (by decide) ?_
    refine Nat.mul_le_mul_right _ (Nat.mul_le_mul_right _ ?_)
    exact Nat.le_trans (Nat.pow_le_pow_right (by decide) hk) (Nat.le_mul_of_pos_left _ h0)
  exact Nat.le_trans huge_infinite (gen 309 (by omega))

theorem nearestDec_near_zero {n : Nat} {e : Int} (hn : NearestDec n 0 e) : n = 0 :=
  nearestDec_unique hn (nearestDec_zero e)

theorem fromParts_some {s n g : Nat} {e : Int} (hs : s < 2 ^ 64) (hn : NearestDec n s e) (h : fromParts s e = some g) :
    dist g n ≤ 4 := by
  by_cases h1 : -308 ≤ e
  · exact Nat.le_trans (fromParts_close hs h1 hn h) (by decide)
  by_cases h2 : e ≤ -344
  · rw [fromParts_deep hs h2] at h
    cases h
    rw [nearestDec_deep hs h2 hn]; decide
  · exact fromParts_two hs (by omega) (by omega) hn h

theorem fromParts_none {s n : Nat} {e : Int} (hs : s < 2 ^ 64) (hn : NearestDec n s e) (h : fromParts s e = none) :
    infinity ≤ n + 2 := by
  have hp : ∀ j, 0 < 10 ^ j := fun j => Nat.pow_pos (by decide)
  rcases Nat.eq_zero_or_pos s with rfl | h0
  · rw [fromParts_zero] at h; cases h
  by_cases h1 : 308 < e
  · have := nearestDec_high h0 h1 hn; omega
  by_cases h2 : 0 ≤ e
  · have hnear := Near.of_nearest hn (hp _)
    unfold fromParts at h
    rw [scale, if_pos (by omega), if_pos h2] at h
    split at h
    · rename_i hinf
      have e1 : e.toNat = e.natAbs := by omega
      have e2 : (-e).toNat = 0 := by omega
      rw [e1, e2, Nat.pow_zero] at hnear
      have hg := near_roundPat (value (ofNat s) * value (pow10 e.natAbs)) unit unit_pos
      have hd := (mul_close (ofNat_below h0 hs) (pow10_below (by omega))).steps (by decide) unit_pos (by decide) hnear hg
      have : infinity ≤ roundPat (value (ofNat s) * value (pow10 e.natAbs)) unit := by
        unfold mul rnd at hinf; omega
      unfold dist at hd
      omega
    · cases h
  · exfalso
    by_cases h3 : e ≤ -344
    · rw [fromParts_deep hs h3] at h; cases h
    unfold fromParts at h
    obtain ⟨c, hc⟩ : ∃ c, e.natAbs / 308 + 1 = c + 1 := ⟨_, rfl⟩
    rw [hc, scale] at h
    split at h
    · cases h
    · split at h
      · cases h
      · obtain ⟨c, rfl⟩ : ∃ d, c = d + 1 := ⟨c - 1, by omega⟩
        rw [scale, if_pos (by omega), if_neg (by omega)] at h
        cases h

/-- Moving the point changes nothing. -/
theorem close_dec {s2 u s : Nat} (e : Int) (h : Close 1 (s2 * 10 ^ u) 1 s 1) :
    Close 1 (s2 * 10 ^ (e + u).toNat * unit) (10 ^ (-(e + u)).toNat) (s * 10 ^ e.toNat * unit) (10 ^ (-e).toNat) := by
  have hp : ∀ j, 0 < 10 ^ j := fun j => Nat.pow_pos (by decide)
  have key : ∀ {a b c d : Nat}, a * 10 ^ u * 10 ^ e.toNat * 10 ^ (-(e + u)).toNat = c →
      a * 10 ^ (e + u).toNat * 10 ^ (-e).toNat = d → c = d := by
    intro a b c d hc hd
    rw [← hc, ← hd, Nat.mul_assoc, Nat.mul_assoc, Nat.mul_assoc, ← Nat.pow_add, ← Nat.pow_add, ← Nat.pow_add]
    congr 2; omega
  have e0 : s2 * 10 ^ u * 10 ^ e.toNat * 10 ^ (-(e + u)).toNat = s2 * 10 ^ (e + u).toNat * 10 ^ (-e).toNat :=
    key (b := 0) rfl rfl
  have b1 := ((h.1.scale (10 ^ e.toNat * unit)).shrink (10 ^ (-e).toNat))
  have b2 := ((h.2.scale (10 ^ e.toNat * unit)).shrink (10 ^ (-e).toNat))
  simp only [Nat.one_mul] at b1 b2
  have e3 : s2 * 10 ^ u * (10 ^ e.toNat * unit) * 10 ^ (-(e + u)).toNat =
      s2 * 10 ^ (e + u).toNat * unit * 10 ^ (-e).toNat := by
    calc s2 * 10 ^ u * (10 ^ e.toNat * unit) * 10 ^ (-(e + u)).toNat
        = s2 * 10 ^ u * 10 ^ e.toNat * 10 ^ (-(e + u)).toNat * unit := by ac_rfl
      _ = s2 * 10 ^ (e + u).toNat * 10 ^ (-e).toNat * unit := by rw [e0]
      _ = _ := by ac_rfl
  exact ⟨b1.congr (hp _) (hp _) e3 (by ac_rfl), b2.congr (hp _) (hp _) (by ac_rfl) e3⟩

theorem nearestDec_exists (s : Nat) (e : Int) : ∃ n, NearestDec n s e :=
  ⟨_, (near_roundPat _ _ (Nat.pow_pos (by decide))).nearest (Nat.pow_pos (by decide))⟩

theorem close_nearest {s2 u s n n' : Nat} {e : Int} (h : Close 1 (s2 * 10 ^ u) 1 s 1) (hn : NearestDec n s e)
    (hn' : NearestDec n' s2 (e + u)) : dist n' n ≤ 1 :=
  have hp : ∀ j, 0 < 10 ^ j := fun j => Nat.pow_pos (by decide)
  (close_dec e h).steps (by decide) (hp _) (hp _) (Near.of_nearest hn (hp _)) (Near.of_nearest hn' (hp _))

/-- C107: every number literal that is accepted, with however many digits and whatever exponent, is read as a finite double
of its sign and at most five steps away from the one nearest to the number. -/
theorem C107_read (cs : List Char) (neg : Bool) (s : Nat) (e : Int) (h : Literal cs neg s e) (hl : cs.length ≤ 2 ^ 29)
    (n : Nat) (hn : NearestDec n s e) (f : F64) (hf : read cs = some f) :
    f.Finite ∧ f.neg = neg ∧ dist f.mag n ≤ 5 := by
  obtain ⟨s2, u, h1, h2, h3⟩ := read_any h hl
  rw [h1] at hf
  obtain ⟨g, hg, rfl⟩ := Option.map_eq_some_iff.1 hf
  have hgf := fromParts_finite h2 hg
  obtain ⟨m1, m2, m3⟩ := make_parts (neg := neg) hgf
  obtain ⟨n', hn'⟩ := nearestDec_exists s2 (e + u)
  have d1 := close_nearest h3 hn hn'
  have d2 := fromParts_some h2 hn' hg
  refine ⟨m3, m2, ?_⟩
  rw [m1]
  unfold dist at *
  omega

/-- C107: a literal is rejected only if it is out of range or within three steps of that. -/
theorem C107_rejected (cs : List Char) (neg : Bool) (s : Nat) (e : Int) (h : Literal cs neg s e) (hl : cs.length ≤ 2 ^ 29)
    (n : Nat) (hn : NearestDec n s e) (hf : read cs = none) : infinity ≤ n + 3 := by
  obtain ⟨s2, u, h1, h2, h3⟩ := read_any h hl
  rw [h1, Option.map_eq_none_iff] at hf
  obtain ⟨n', hn'⟩ := nearestDec_exists s2 (e + u)
  have d1 := close_nearest h3 hn hn'
  have d2 := fromParts_none h2 hn' hf
  unfold dist at *
  omega

/-- C107: and literals clearly out of range are rejected. -/
theorem C107_out (cs : List Char) (neg : Bool) (s : Nat) (e : Int) (h : Literal cs neg s e) (hl : cs.length ≤ 2 ^ 29)
    (n : Nat) (hn : NearestDec n s e) (hb : infinity + 5 ≤ n) : read cs = none := by
  cases hf : read cs with
  | none => rfl
  | some f =>
    obtain ⟨h1, _, h3⟩ := C107_read cs neg s e h hl n hn f hf
    have h1 : f.mag < infinity := h1
    unfold dist at h3
    omega

/-- C107: zero is read as zero, in all its forms. -/
theorem C107_zero (cs : List Char) (neg : Bool) (e : Int) (h : Literal cs neg 0 e) (hl : cs.length ≤ 2 ^ 29) :
    read cs = some (F64.make neg 0) := by
  obtain ⟨s2, u, h1, h2, h3⟩ := read_any h hl
  have : s2 = 0 := by
    have := h3.1
    unfold Below at this
    simp only [Nat.mul_one, Nat.pow_one, Nat.zero_mul] at this
    have hp : 0 < 10 ^ u := Nat.pow_pos (by decide)
    rcases Nat.eq_zero_or_pos s2 with h | h
    · exact h
    · have := Nat.mul_pos h hp; omega
  rw [h1, this, fromParts_zero]; rfl

/-- A literal with more digits than fit 64 bits. -/
theorem long_literal : Literal "-123456789012345678901234567890.55e-10".toList true 12345678901234567890123456789055 (-12) :=
  ⟨"123456789012345678901234567890".toList, '.' :: ['5', '5'], ['5', '5'], 'e' :: '-' :: ['1', '0'], -10,
    ⟨⟨by simp, by decide⟩, fun r hr => by simp at hr⟩, .some ⟨by simp, by decide⟩, .minus (.inl rfl) ⟨by simp, by decide⟩,
    by decide, by decide, by decide⟩

example : read "-123456789012345678901234567890.55e-10".toList = some ⟨0xc3e56a95319d63e1⟩ := by decide +kernel

example (n : Nat) (hn : NearestDec n 12345678901234567890123456789055 (-12)) :
    dist (⟨0xc3e56a95319d63e1⟩ : F64).mag n ≤ 5 :=
  (C107_read _ _ _ _ long_literal (by decide) n hn _ (by decide +kernel)).2.2

/-- A literal out of range. -/
theorem huge_literal : Literal "1e400".toList false 1 400 :=
  ⟨['1'], [], [], 'e' :: ['4', '0', '0'], 400, ⟨⟨by simp, by decide⟩, fun r hr => by simp at hr⟩, .none,
    .plain (.inl rfl) ⟨by simp, by decide⟩, by decide, by decide, by decide⟩

example (n : Nat) (hn : NearestDec n 1 400) : infinity ≤ n + 3 :=
  C107_rejected _ _ _ _ huge_literal (by decide) n hn (by decide +kernel)

example : ∃ n, NearestDec n 1 400 ∧ infinity + 5 ≤ n := by
  have hp : ∀ j, 0 < 10 ^ j := fun j => Nat.pow_pos (by decide)
  exact ⟨_, (near_roundPat (1 * 10 ^ (400 : Int).toNat * unit) (10 ^ (-(400 : Int)).toNat) (hp _)).nearest (hp _), by decide +kernel⟩

/-- A zero with a huge exponent. -/
theorem zero_literal : Literal "-0.0e99999999999".toList true 0 99999999998 :=
  ⟨['0'], '.' :: ['0'], ['0'], 'e' :: "99999999999".toList, 99999999999, ⟨⟨by simp, by decide⟩, fun r hr => by simpa using hr⟩,
    .some ⟨by simp, by decide⟩, .plain (.inl rfl) ⟨by simp, by decide⟩, by decide, by decide, by decide⟩

example : read "-0.0e99999999999".toList = some ⟨0x8000000000000000⟩ :=
  C107_zero _ _ _ zero_literal (by decide)

end Double
end Bsp
