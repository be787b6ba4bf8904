/-
Rounding: the model's arithmetic of doubles is round-to-nearest-even.
-/
import Verif.Double

namespace Bsp
namespace Double
open Spec

/-! ### The doubles in order -/

theorem value_small {n : Nat} (h : n < 2 ^ 52) : value n = n := by simp [value, h]

theorem value_big (s m : Nat) (h : m < 2 ^ 52) : value ((s + 1) * 2 ^ 52 + m) = (2 ^ 52 + m) * 2 ^ s := by
  have h1 : ¬ (s + 1) * 2 ^ 52 + m < 2 ^ 52 := by omega
  have h2 : ((s + 1) * 2 ^ 52 + m) % 2 ^ 52 = m := by omega
  have h3 : ((s + 1) * 2 ^ 52 + m) / 2 ^ 52 - 1 = s := by omega
  rw [value, if_neg h1, h2, h3]

theorem value_at (s m : Nat) (h : s = 0 ∨ 2 ^ 52 ≤ m) (h' : m ≤ 2 ^ 53) :
    value (s * 2 ^ 52 + m) = m * 2 ^ s := by
  by_cases h1 : m < 2 ^ 52
  · rcases h with rfl | h
    · rw [Nat.zero_mul, Nat.zero_add, value_small h1]; simp
    · omega
  by_cases h2 : m < 2 ^ 53
  · have := value_big s (m - 2 ^ 52) (by omega)
    have e : (s + 1) * 2 ^ 52 + (m - 2 ^ 52) = s * 2 ^ 52 + m := by omega
    rw [e] at this
    rw [this, show 2 ^ 52 + (m - 2 ^ 52) = m by omega]
  · have hm : m = 2 ^ 53 := by omega
    subst hm
    have := value_big (s + 1) 0 (by decide)
    have e : (s + 1 + 1) * 2 ^ 52 + 0 = s * 2 ^ 52 + 2 ^ 53 := by omega
    rw [e] at this
    rw [this, Nat.pow_succ]; omega

/-- Every bit pattern as shift and 53-bit significand. -/
theorem pattern (n : Nat) : ∃ s m, n = s * 2 ^ 52 + m ∧ (s = 0 ∨ 2 ^ 52 ≤ m) ∧ m < 2 ^ 53 := by
  by_cases h : n < 2 ^ 52
  · exact ⟨0, n, by omega, .inl rfl, by omega⟩
  · exact ⟨n / 2 ^ 52 - 1, 2 ^ 52 + n % 2 ^ 52, by omega, .inr (by omega), by omega⟩

theorem value_succ_lt (n : Nat) : value n < value (n + 1) := by
  obtain ⟨s, m, rfl, h, h'⟩ := pattern n
  rw [value_at s m h (by omega), show s * 2 ^ 52 + m + 1 = s * 2 ^ 52 + (m + 1) by omega,
    value_at s (m + 1) (by omega) (by omega)]
  exact Nat.mul_lt_mul_of_pos_right (by omega) (Nat.two_pow_pos s)

theorem value_lt {m n : Nat} (h : m < n) : value m < value n := by
  induction n with
  | zero => omega
  | succ n ih =>
    by_cases e : m = n
    · subst e; exact value_succ_lt m
    · exact Nat.lt_trans (ih (by omega)) (value_succ_lt n)

theorem value_le {m n : Nat} (h : m ≤ n) : value m ≤ value n := by
  by_cases e : m = n
  · subst e; exact Nat.le_refl _
  · exact Nat.le_of_lt (value_lt (by omega))

theorem value_zero : value 0 = 0 := by decide

/-! ### Half-way intervals are nearest points -/

theorem Near.nearest {n a b : Nat} (h : Near n a b) (hb : 0 < b) : Nearest n a b := by
  intro m
  obtain ⟨h1, h2⟩ := h
  rw [Nat.add_mul] at h1 h2
  have hn := Nat.mul_lt_mul_of_pos_right (value_succ_lt n) hb
  simp only [dist]
  rcases Nat.lt_trichotomy m n with hm | rfl | hm
  · have e1 : value m * b ≤ value (n - 1) * b := Nat.mul_le_mul_right _ (value_le (by omega))
    have e2 : value (n - 1) * b < value n * b := Nat.mul_lt_mul_of_pos_right (value_lt (by omega)) hb
    generalize value m * b = x at *
    generalize value n * b = y at *
    generalize value (n - 1) * b = z at *
    generalize value (n + 1) * b = w at *
    omega
  · exact ⟨Nat.le_refl _, fun h => absurd rfl h⟩
  · have e1 : value (n + 1) * b ≤ value m * b := Nat.mul_le_mul_right _ (value_le (by omega))
    have e2 : n = 0 ∨ value (n - 1) * b < value n * b := by
      by_cases h0 : n = 0
      · exact .inl h0
      · exact .inr (Nat.mul_lt_mul_of_pos_right (value_lt (by omega)) hb)
    generalize value m * b = x at *
    generalize value n * b = y at *
    generalize value (n - 1) * b = z at *
    generalize value (n + 1) * b = w at *
    omega

theorem Near.of_nearest {n a b : Nat} (h : Nearest n a b) (hb : 0 < b) : Near n a b := by
  have h2 := h (n + 1)
  have h1 := h (n - 1)
  have hn := Nat.mul_lt_mul_of_pos_right (value_succ_lt n) hb
  unfold Near
  rw [Nat.add_mul, Nat.add_mul]
  simp only [dist] at h1 h2
  have e2 : n = 0 ∨ value (n - 1) * b < value n * b := by
    by_cases h0 : n = 0
    · exact .inl h0
    · exact .inr (Nat.mul_lt_mul_of_pos_right (value_lt (by omega)) hb)
  generalize value n * b = y at *
  generalize value (n - 1) * b = z at *
  generalize value (n + 1) * b = w at *
  refine ⟨?_, ?_⟩
  · by_cases h0 : n = 0
    · exact .inl h0
    · have hne : n - 1 ≠ n := by omega
      have h1b := h1.2 hne
      omega
  · have hne : n + 1 ≠ n := by omega
    have h2b := h2.2 hne
    omega

theorem near_iff {n a b : Nat} (hb : 0 < b) : Near n a b ↔ Nearest n a b :=
  ⟨fun h => h.nearest hb, fun h => .of_nearest h hb⟩

/-- Rounding is monotone. -/
theorem Near.mono {n n' a b a' b' : Nat} (h : Near n a b) (h' : Near n' a' b') (hb : 0 < b) (hb' : 0 < b')
    (hle : a * b' ≤ a' * b) : n ≤ n' := by
  by_cases hlt : n' < n
  · exfalso
    obtain ⟨h1, _⟩ := h
    obtain ⟨_, h2⟩ := h'
    have e1 : value n' + value (n' + 1) ≤ value (n - 1) + value n :=
      Nat.add_le_add (value_le (by omega)) (value_le (by omega))
    have e2 : (value n' + value (n' + 1)) * (b' * b) ≤ (value (n - 1) + value n) * (b' * b) :=
      Nat.mul_le_mul_right _ e1
    have e3 : n' + 1 < n → (value n' + value (n' + 1)) * (b' * b) < (value (n - 1) + value n) * (b' * b) := by
      intro hh
      refine Nat.mul_lt_mul_of_pos_right ?_ (Nat.mul_pos hb' hb)
      have i1 := value_lt (m := n') (n := n - 1) (by omega)
      have i2 := value_lt (m := n' + 1) (n := n) (by omega)
      omega
    have k1 : (value (n - 1) + value n) * (b' * b) = ((value (n - 1) + value n) * b) * b' := by
      rw [Nat.mul_comm b' b, Nat.mul_assoc]
    have k2 : (value n' + value (n' + 1)) * (b' * b) = ((value n' + value (n' + 1)) * b') * b := by
      rw [Nat.mul_assoc]
    rw [k1, k2] at e2 e3
    have k3 : 2 * a * b' ≤ 2 * a' * b := by rw [Nat.mul_assoc, Nat.mul_assoc]; omega
    have hlow : (value (n - 1) + value n) * b ≤ 2 * a := by omega
    have hupp : 2 * a' ≤ (value n' + value (n' + 1)) * b' := by omega
    have l1 : ((value (n - 1) + value n) * b) * b' ≤ 2 * a * b' := Nat.mul_le_mul_right _ hlow
    have l2 : 2 * a' * b ≤ ((value n' + value (n' + 1)) * b') * b := Nat.mul_le_mul_right _ hupp
    have q1 : ((value (n - 1) + value n) * b) * b' = 2 * a * b' := by omega
    have q2 : 2 * a' * b = ((value n' + value (n' + 1)) * b') * b := by omega
    have r1 := Nat.eq_of_mul_eq_mul_right hb' q1
    have r2 := Nat.eq_of_mul_eq_mul_right hb q2
    have hn : n' + 1 = n := by
      by_cases hh : n' + 1 < n
      · have := e3 hh; omega
      · omega
    omega
  · omega

theorem Near.unique {n n' a b : Nat} (h : Near n a b) (h' : Near n' a b) (hb : 0 < b) : n = n' :=
  Nat.le_antisymm (h.mono h' hb hb (Nat.le_refl _)) (h'.mono h hb hb (Nat.le_refl _))

theorem Near.congr {n a b a' b' : Nat} (h : Near n a b) (hb : 0 < b) (hb' : 0 < b') (he : a * b' = a' * b) :
    Near n a' b' := by
  unfold Near at *
  have key : ∀ x y : Nat, x < y ↔ x * (b * b') < y * (b * b') := fun x y =>
    (Nat.mul_lt_mul_right (Nat.mul_pos hb hb')).symm
  have c1 : ∀ x, (x * b < 2 * a ↔ x * b' < 2 * a') ∧ (x * b = 2 * a ↔ x * b' = 2 * a') ∧
      (2 * a < x * b ↔ 2 * a' < x * b') := by
    intro x
    have e1 : (x * b) * b' = (x * b') * b := by rw [Nat.mul_assoc, Nat.mul_comm b, ← Nat.mul_assoc]
    have e2 : (2 * a) * b' = (2 * a') * b := by rw [Nat.mul_assoc, he, Nat.mul_assoc]
    refine ⟨?_, ?_, ?_⟩
    · rw [← Nat.mul_lt_mul_right hb', e1, e2, Nat.mul_lt_mul_right hb]
    · constructor
      · intro h; rw [h] at e1; rw [e1] at e2; exact Nat.eq_of_mul_eq_mul_right hb e2
      · intro h; rw [h] at e1; rw [← e2] at e1; exact Nat.eq_of_mul_eq_mul_right hb' e1
    · rw [← Nat.mul_lt_mul_right hb', e1, e2, Nat.mul_lt_mul_right hb]
  rw [(c1 _).1, (c1 _).2.1, (c1 (value n + value (n + 1))).2.2] at h
  have : 2 * a = (value n + value (n + 1)) * b ↔ 2 * a' = (value n + value (n + 1)) * b' := by
    rw [eq_comm, (c1 _).2.1, eq_comm]
  rw [this] at h
  exact h

/-- Every double is nearest to its own value. -/
theorem near_value (n b : Nat) (hb : 0 < b) : Near n (value n * b) b := by
  refine Near.of_nearest ?_ hb
  intro m
  have h0 : dist (value n * b) (value n * b) = 0 := by simp [dist]
  rw [h0]
  refine ⟨Nat.zero_le _, fun hm he => ?_⟩
  exfalso
  have : value n * b = value m * b := by simp only [dist] at he; omega
  have := Nat.eq_of_mul_eq_mul_right hb this
  rcases Nat.lt_trichotomy m n with h | h | h
  · have := value_lt h; omega
  · exact hm h
  · have := value_lt h; omega

/-! ### The model's rounding -/

theorem log2_bounds (x : Nat) (h : Nat.log2 x - 52 ≠ 0) :
    2 ^ (Nat.log2 x - 52) * 2 ^ 52 ≤ x := by
  have hx : x ≠ 0 := by intro e; subst e; simp at h
  have := Nat.log2_self_le hx
  rw [← Nat.pow_add]
  rwa [show Nat.log2 x - 52 + 52 = Nat.log2 x by omega]

theorem log2_upper (x : Nat) : x < 2 ^ (Nat.log2 x - 52) * 2 ^ 53 := by
  have := Nat.lt_log2_self (n := x)
  rw [← Nat.pow_add]
  exact Nat.lt_of_lt_of_le this (Nat.pow_le_pow_right (by decide) (by omega))

theorem near_between {N q r a b B : Nat} (hb : 0 < b) (hpar : N % 2 = q % 2) (e1 : value N * b = q * B)
    (e2 : value (N + 1) * b = q * B + B) (ha : a = q * B + r) (hr : r < B) :
    (2 * r < B ∨ (2 * r = B ∧ q % 2 = 0) → Near N a b) ∧
      (B < 2 * r ∨ (2 * r = B ∧ q % 2 = 1) → Near (N + 1) a b) := by
  have e3 : value (N + 1) * b < value (N + 1 + 1) * b :=
    Nat.mul_lt_mul_of_pos_right (value_succ_lt _) hb
  have e4 : N = 0 ∨ value (N - 1) * b < value N * b := by
    by_cases h0 : N = 0
    · exact .inl h0
    · exact .inr (Nat.mul_lt_mul_of_pos_right (value_lt (by omega)) hb)
  constructor
  · intro hh
    unfold Near
    rw [Nat.add_mul, Nat.add_mul]
    generalize q * B = Q at *
    generalize value N * b = y at *
    generalize value (N - 1) * b = z at *
    generalize value (N + 1) * b = w at *
    omega
  · intro hh
    unfold Near
    rw [Nat.add_mul, Nat.add_mul, Nat.add_sub_cancel]
    generalize q * B = Q at *
    generalize value N * b = y at *
    generalize value (N + 1 + 1) * b = z at *
    generalize value (N + 1) * b = w at *
    omega

theorem near_roundPat (a b : Nat) (hb : 0 < b) : Near (roundPat a b) a b := by
  unfold roundPat
  have hup := log2_upper (a / b)
  have hlo := log2_bounds (a / b)
  generalize Nat.log2 (a / b) - 52 = s at *
  have hB : 0 < b * 2 ^ s := Nat.mul_pos hb (Nat.two_pow_pos s)
  have hq : a / (b * 2 ^ s) = a / b / 2 ^ s := (Nat.div_div_eq_div_mul ..).symm
  have h1 : a / (b * 2 ^ s) < 2 ^ 53 := by
    rw [hq, Nat.div_lt_iff_lt_mul (Nat.two_pow_pos s), Nat.mul_comm]; exact hup
  have h2 : s = 0 ∨ 2 ^ 52 ≤ a / (b * 2 ^ s) := by
    by_cases h0 : s = 0
    · exact .inl h0
    · right
      rw [hq, Nat.le_div_iff_mul_le (Nat.two_pow_pos s), Nat.mul_comm]; exact hlo h0
  have ha : a = (a / (b * 2 ^ s)) * (b * 2 ^ s) + a % (b * 2 ^ s) := by
    rw [Nat.mul_comm]; exact (Nat.div_add_mod ..).symm
  have v1 := value_at s (a / (b * 2 ^ s)) h2 (by omega)
  have v2 := value_at s (a / (b * 2 ^ s) + 1) (by omega) (by omega)
  obtain ⟨hd, hu⟩ := near_between (N := s * 2 ^ 52 + a / (b * 2 ^ s)) hb (by omega)
    (by rw [v1, Nat.mul_assoc, Nat.mul_comm (2 ^ s)])
    (by rw [Nat.add_assoc, v2, Nat.mul_assoc, Nat.mul_comm (2 ^ s), Nat.add_mul, Nat.one_mul])
    ha (Nat.mod_lt _ hB)
  rw [Nat.add_assoc] at hu
  unfold roundInt
  split
  · exact hd (.inl ‹_›)
  split
  · exact hu (.inl ‹_›)
  · rcases Nat.mod_two_eq_zero_or_one (a / (b * 2 ^ s)) with hq | hq
    · rw [hq]; exact hd (.inr ⟨by omega, hq⟩)
    · rw [hq]; exact hu (.inr ⟨by omega, hq⟩)

theorem rnd_of_near {n a b : Nat} (hb : 0 < b) (h : Near n a b) : rnd a b = min infinity n := by
  rw [rnd, (near_roundPat a b hb).unique h hb]

/-- `value n` is a number that is exactly a double. -/
theorem rnd_value {n a b : Nat} (hb : 0 < b) (h : a = value n * b) : rnd a b = min infinity n := by
  subst h; exact rnd_of_near hb (near_value n b hb)

/-! ### The shortest decimal -/

theorem Near.up {n a a' b : Nat} (hb : 0 < b) (h : Near n a b) (h1 : a ≤ a') (h2 : a' ≤ value n * b) :
    Near n a' b := by
  unfold Near at *
  have hn := Nat.mul_lt_mul_of_pos_right (value_succ_lt n) hb
  rw [Nat.add_mul, Nat.add_mul] at *
  generalize value n * b = y at *
  generalize value (n - 1) * b = z at *
  generalize value (n + 1) * b = w at *
  omega

theorem Near.down {n a a' b : Nat} (hb : 0 < b) (h : Near n a b) (h1 : a' ≤ a) (h2 : value n * b ≤ a') :
    Near n a' b := by
  unfold Near at *
  have e2 : n = 0 ∨ value (n - 1) * b < value n * b := by
    by_cases h0 : n = 0
    · exact .inl h0
    · exact .inr (Nat.mul_lt_mul_of_pos_right (value_lt (by omega)) hb)
  rw [Nat.add_mul, Nat.add_mul] at *
  generalize value n * b = y at *
  generalize value (n - 1) * b = z at *
  generalize value (n + 1) * b = w at *
  omega

/-- Whatever lies between two numbers of the interval lies in the interval. -/
theorem Near.between {n a a' c b : Nat} (hb : 0 < b) (h : Near n a b) (h' : Near n a' b) (h1 : a ≤ c)
    (h2 : c ≤ a') : Near n c b := by
  by_cases hc : c ≤ value n * b
  · exact h.up hb h1 hc
  · exact h'.down hb h2 (by omega)

theorem five_pos : 0 < fives := by unfold fives; exact Nat.pow_pos (by decide)

theorem pick_spec {n i d : Nat} (h : pick n i = some d) : Inside n d i ∧
    ∀ d', Inside n d' i → dist (d * 10 ^ i) (value n * fives) ≤ dist (d' * 10 ^ i) (value n * fives) := by
  have hw : 0 < 10 ^ i := Nat.pow_pos (by decide)
  have hv : value n * fives = (value n * fives / 10 ^ i) * 10 ^ i + value n * fives % 10 ^ i := by
    rw [Nat.mul_comm (_ / _)]; exact (Nat.div_add_mod ..).symm
  have hr : value n * fives % 10 ^ i < 10 ^ i := Nat.mod_lt _ hw
  unfold pick at h
  simp only at h
  unfold Inside
  generalize value n * fives / 10 ^ i = q at *
  generalize value n * fives % 10 ^ i = r at *
  have hgen : ∀ d', d' ≤ q ∧ d' * 10 ^ i ≤ q * 10 ^ i ∨ q + 1 ≤ d' ∧ (q + 1) * 10 ^ i ≤ d' * 10 ^ i := by
    intro d'
    by_cases hd : d' ≤ q
    · exact .inl ⟨hd, Nat.mul_le_mul_right _ hd⟩
    · exact .inr ⟨by omega, Nat.mul_le_mul_right _ (by omega)⟩
  have hq1 : (q + 1) * 10 ^ i = q * 10 ^ i + 10 ^ i := by rw [Nat.add_mul, Nat.one_mul]
  split at h
  · rename_i hc
    obtain ⟨hin, hc⟩ := hc
    obtain rfl := Option.some.inj h
    refine ⟨hin, fun d' hd' => ?_⟩
    have hno : q + 1 ≤ d' → Inside n (q + 1) i := by
      intro hle
      exact Near.down five_pos hd' (Nat.mul_le_mul_right _ hle) (by
        rw [hv, hq1]; omega)
    have hg := hgen d'
    rw [hq1] at hg
    unfold dist
    rw [hv]
    generalize q * 10 ^ i = x at *
    generalize d' * 10 ^ i = y at *
    generalize 10 ^ i = w at *
    have h3 : d' ≤ q ∨ (2 * r < w ∨ 2 * r = w ∧ q % 2 = 0) := by
      by_cases hdq : d' ≤ q
      · exact .inl hdq
      · rcases hc with hc | hc
        · exact absurd (hno (by omega)) hc
        · exact .inr hc
    omega
  split at h
  · rename_i hc hin
    obtain rfl := Option.some.inj h
    refine ⟨hin, fun d' hd' => ?_⟩
    have hno : d' ≤ q → Inside n q i := by
      intro hle
      exact Near.up five_pos hd' (Nat.mul_le_mul_right _ hle) (by rw [hv]; omega)
    have hg := hgen d'
    rw [hq1] at hg ⊢
    unfold dist
    rw [hv]
    have h3 : q + 1 ≤ d' ∨ 10 ^ i ≤ 2 * r := by
      by_cases hdq : d' ≤ q
      · right
        have := hno hdq
        have : ¬ (2 * r < 10 ^ i) := fun hh => hc ⟨this, .inr (.inl hh)⟩
        omega
      · exact .inl (by omega)
    clear hc hin hno hd' hv h
    generalize q * 10 ^ i = x at *
    generalize d' * 10 ^ i = y at *
    generalize 10 ^ i = w at *
    omega
  · cases h

theorem pick_some {n i d : Nat} (h : Inside n d i) : ∃ d', pick n i = some d' := by
  have hw : 0 < 10 ^ i := Nat.pow_pos (by decide)
  have hv : value n * fives = (value n * fives / 10 ^ i) * 10 ^ i + value n * fives % 10 ^ i := by
    rw [Nat.mul_comm (_ / _)]; exact (Nat.div_add_mod ..).symm
  have hr : value n * fives % 10 ^ i < 10 ^ i := Nat.mod_lt _ hw
  unfold pick
  simp only
  generalize hQ : value n * fives / 10 ^ i = q at *
  generalize value n * fives % 10 ^ i = r at *
  have hin : Inside n q i ∨ Inside n (q + 1) i := by
    by_cases hd : d ≤ q
    · exact .inl (Near.up five_pos h (Nat.mul_le_mul_right _ hd) (by rw [hv]; omega))
    · exact .inr (Near.down five_pos h (Nat.mul_le_mul_right _ (by omega)) (by
        rw [hv, Nat.add_mul, Nat.one_mul]; omega))
  by_cases h1 : Inside n (q + 1) i
  · split
    · exact ⟨_, rfl⟩
    · exact ⟨_, rfl⟩
  · have h2 : Inside n q i := by
      rcases hin with h | h
      · exact h
      · exact absurd h h1
    rw [if_pos ⟨h2, .inl h1⟩]; exact ⟨_, rfl⟩

theorem inside_zero (n : Nat) : Inside n (value n * fives) 0 := by
  unfold Inside
  rw [Nat.pow_zero, Nat.mul_one]
  exact near_value n _ five_pos

theorem search_spec (n : Nat) : ∀ c, 0 < c → (search n c).2 < c ∧ pick n (search n c).2 = some (search n c).1 ∧
    ∀ j d', (search n c).2 < j → j < c → ¬ Inside n d' j := by
  intro c
  induction c with
  | zero => omega
  | succ c ih =>
    intro _
    unfold search
    split
    · rename_i d hd
      exact ⟨by simp, hd, fun j d' h1 h2 => by simp only at h1; omega⟩
    · rename_i hd
      have hno : ∀ d', ¬ Inside n d' c := fun d' h => by
        obtain ⟨x, hx⟩ := pick_some h
        rw [hd] at hx; cases hx
      have hc : 0 < c := by
        rcases Nat.eq_zero_or_pos c with rfl | h
        · exact absurd (inside_zero n) (hno _)
        · exact h
      obtain ⟨h1, h2, h3⟩ := ih hc
      refine ⟨by omega, h2, fun j d' hj hj' => ?_⟩
      by_cases e : j = c
      · subst e; exact hno d'
      · exact h3 j d' hj (by omega)

theorem inside_pos {n d i : Nat} (hn : 0 < n) (h : Inside n d i) : 0 < d := by
  rcases Nat.eq_zero_or_pos d with rfl | h'
  · exfalso
    obtain ⟨h1, _⟩ := h
    have h2 : 0 < (value (n - 1) + value n) * fives :=
      Nat.mul_pos (by have := value_lt hn; omega) five_pos
    rw [Nat.zero_mul] at h1
    omega
  · exact h'

theorem value_infinity : value infinity = 2 ^ 2098 := by decide +kernel

theorem value_finite {n : Nat} (h : n < infinity) : value n < 2 ^ 2098 := by
  rw [← value_infinity]; exact value_lt h

theorem finite_of_value {n : Nat} (h : value n < 2 ^ 2098) : n < infinity := by
  by_cases hh : n < infinity
  · exact hh
  · have := value_le (Nat.le_of_not_lt hh)
    rw [value_infinity] at this; omega

theorem inside_lt {n d i : Nat} (hn : 0 < n) (hf : n < infinity) (h : Inside n d i) : i < 1400 := by
  have hd := inside_pos hn h
  obtain ⟨_, h2⟩ := h
  by_cases hi : i < 1400
  · exact hi
  · exfalso
    have e1 : 10 ^ 1400 ≤ d * 10 ^ i := by
      refine Nat.le_trans (Nat.pow_le_pow_right (by decide) (Nat.le_of_not_lt hi)) ?_
      exact Nat.le_mul_of_pos_left _ hd
    have e2 : (value n + value (n + 1)) * fives ≤ (2 ^ 2098 + 2 ^ 2098) * fives := by
      refine Nat.mul_le_mul_right _ (Nat.add_le_add (Nat.le_of_lt (value_finite hf)) ?_)
      rw [← value_infinity]; exact value_le hf
    have e3 : (2 ^ 2098 + 2 ^ 2098) * fives < 2 * 10 ^ 1400 := by decide +kernel
    omega

/-- What the search finds: a decimal in the interval, none with a larger exponent, the closest with this
exponent. -/
theorem search_found {n : Nat} (hn : 0 < n) (hf : n < infinity) :
    Inside n (search n 1400).1 (search n 1400).2 ∧
      (∀ j d', Inside n d' j → j ≤ (search n 1400).2) ∧
      ∀ d', Inside n d' (search n 1400).2 →
        dist ((search n 1400).1 * 10 ^ (search n 1400).2) (value n * fives) ≤
          dist (d' * 10 ^ (search n 1400).2) (value n * fives) := by
  obtain ⟨h1, h2, h3⟩ := search_spec n 1400 (by decide)
  obtain ⟨h4, h5⟩ := pick_spec h2
  refine ⟨h4, fun j d' hj => ?_, h5⟩
  by_cases hle : j ≤ (search n 1400).2
  · exact hle
  · exact absurd hj (h3 j d' (by omega) (inside_lt hn hf hj))

/-! ### At most 17 digits -/

/-- Neighbours are not too close. -/
theorem value_gap {n : Nat} (hn : 0 < n) : 2 * value n ≤ (value (n + 1) - value (n - 1)) * 2 ^ 53 := by
  obtain ⟨s, m, rfl, h, h'⟩ := pattern n
  rw [show s * 2 ^ 52 + m + 1 = s * 2 ^ 52 + (m + 1) by omega,
    value_at s m h (by omega), value_at s (m + 1) (by omega) (by omega)]
  have hp := Nat.two_pow_pos s
  have e0 : (m + 1) * 2 ^ s = m * 2 ^ s + 2 ^ s := by rw [Nat.add_mul, Nat.one_mul]
  have e3 : m * 2 ^ s ≤ 2 ^ 53 * 2 ^ s := Nat.mul_le_mul_right _ (by omega)
  by_cases hm : s = 0 ∨ 2 ^ 52 ≤ m - 1
  · have e1 : value (s * 2 ^ 52 + m - 1) + 2 ^ s = m * 2 ^ s := by
      rw [show s * 2 ^ 52 + m - 1 = s * 2 ^ 52 + (m - 1) by omega, value_at s (m - 1) hm (by omega),
        ← Nat.succ_mul, show (m - 1).succ = m by omega]
    generalize value (s * 2 ^ 52 + m - 1) = z at *
    generalize (m + 1) * 2 ^ s = y at *
    generalize m * 2 ^ s = u at *
    generalize 2 ^ s = t at *
    omega
  · have hm' : m = 2 ^ 52 := by omega
    have e4 : m * 2 ^ s = 2 ^ 52 * 2 ^ s := by rw [hm']
    have e1 : value (s * 2 ^ 52 + m - 1) < m * 2 ^ s := by
      rw [← value_at s m h (by omega)]; exact value_lt (by omega)
    have e2 : 2 ^ s = 2 * 2 ^ (s - 1) := by
      rw [← Nat.pow_succ', show (s - 1).succ = s by omega]
    generalize value (s * 2 ^ 52 + m - 1) = z at *
    generalize (m + 1) * 2 ^ s = y at *
    generalize m * 2 ^ s = u at *
    generalize 2 ^ s = t at *
    omega

/-- An interval longer than ten has a multiple of ten in it. -/
theorem multiple_between {lo hi w : Nat} (hw : 0 < w) (h : lo + 20 * w < hi) :
    ∃ d, lo < 2 * (d * (10 * w)) ∧ 2 * (d * (10 * w)) < hi := by
  refine ⟨lo / (20 * w) + 1, ?_, ?_⟩
  · have h1 := Nat.lt_div_mul_add (a := lo) (b := 20 * w) (by omega)
    have e : 2 * ((lo / (20 * w) + 1) * (10 * w)) = lo / (20 * w) * (20 * w) + 20 * w := by
      rw [Nat.add_mul, Nat.one_mul, Nat.mul_add, Nat.mul_left_comm, ← Nat.mul_assoc 2 10]
    omega
  · have h1 := Nat.div_mul_le_self lo (20 * w)
    have e : 2 * ((lo / (20 * w) + 1) * (10 * w)) = lo / (20 * w) * (20 * w) + 20 * w := by
      rw [Nat.add_mul, Nat.one_mul, Nat.mul_add, Nat.mul_left_comm, ← Nat.mul_assoc 2 10]
    omega

theorem digits17 {n : Nat} (hn : 0 < n) (hf : n < infinity) : (search n 1400).1 < 10 ^ 17 := by
  obtain ⟨h1, h2, h3⟩ := search_found hn hf
  generalize (search n 1400).1 = d at *
  generalize (search n 1400).2 = i at *
  by_cases hd : d < 10 ^ 17
  · exact hd
  exfalso
  have hw : 0 < 10 ^ i := Nat.pow_pos (by decide)
  have hgap := value_gap hn
  have hlt1 := value_lt (m := n - 1) (n := n) (by omega)
  have hlt2 := value_succ_lt n
  -- d is at most one step above the exact value
  have hdv : (d - 1) * 10 ^ i ≤ value n * fives := by
    by_cases hle : d * 10 ^ i ≤ value n * fives
    · exact Nat.le_trans (Nat.mul_le_mul_right _ (Nat.sub_le _ _)) hle
    · by_cases hle' : (d - 1) * 10 ^ i ≤ value n * fives
      · exact hle'
      · exfalso
        have hin : Inside n (d - 1) i :=
          Near.down five_pos h1 (Nat.mul_le_mul_right _ (Nat.sub_le _ _)) (by omega)
        have := h3 (d - 1) hin
        have e : d * 10 ^ i = (d - 1) * 10 ^ i + 10 ^ i := by
          have : d = (d - 1) + 1 := by omega
          conv => lhs; rw [this]
          rw [Nat.add_mul, Nat.one_mul]
        unfold dist at this
        omega
  have hlen : (value (n - 1) + value n) * fives + 20 * 10 ^ i < (value n + value (n + 1)) * fives := by
    have e1 : 2 * value n * fives ≤ (value (n + 1) - value (n - 1)) * 2 ^ 53 * fives :=
      Nat.mul_le_mul_right _ hgap
    have e2 : (10 ^ 17 - 1) * 10 ^ i ≤ (d - 1) * 10 ^ i := Nat.mul_le_mul_right _ (by omega)
    have e3 : (value n + value (n + 1)) * fives =
        (value (n - 1) + value n) * fives + (value (n + 1) - value (n - 1)) * fives := by
      rw [← Nat.add_mul]; congr 1; omega
    rw [e3]
    rw [Nat.mul_assoc 2, Nat.mul_right_comm] at e1
    generalize (value (n + 1) - value (n - 1)) * fives = g at *
    generalize value n * fives = v at *
    generalize (d - 1) * 10 ^ i = x at *
    generalize 10 ^ i = w at *
    omega
  obtain ⟨d', k1, k2⟩ := multiple_between hw hlen
  have hin : Inside n d' (i + 1) := by
    unfold Inside
    rw [Nat.pow_succ, Nat.mul_comm (10 ^ i)]
    exact ⟨.inr (.inl k1), .inl k2⟩
  have := h2 _ _ hin
  omega

end Double
end Bsp
