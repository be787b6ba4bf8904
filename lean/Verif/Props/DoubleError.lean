/-
C106: how far a double that was read can be from the one that was meant: at most a few steps in the sequence of all
doubles, for every literal whose digits fit 64 bits and in particular for the texts that are written.
-/
import Verif.Props.Floats

namespace Bsp
namespace Double
open Spec Gram

/-! ### Factors of `1 + 2^-53` -/

/-- `a / b ≤ a' / b' * (1 + 2^-53)^k`.
For the doubles in the values of bsp-server/src/message.rs:37, 44. -/
def Below (k a b a' b' : Nat) : Prop := a * b' * (2 ^ 53) ^ k ≤ a' * b * (2 ^ 53 + 1) ^ k

theorem midpoint_step (n : Nat) :
    (value n + value (n + 1)) * (2 ^ 53 + 1) < (value (n + 1) + value (n + 2)) * 2 ^ 53 := by
  obtain ⟨s, m, rfl, h1, h2⟩ := pattern n
  have e0 : value (s * 2 ^ 52 + m) = m * 2 ^ s := value_at s m h1 (by omega)
  have e1 : value (s * 2 ^ 52 + m + 1) = (m + 1) * 2 ^ s := by
    rw [Nat.add_assoc]; exact value_at s (m + 1) (by omega) (by omega)
  have e2 : (m + 2) * 2 ^ s ≤ value (s * 2 ^ 52 + m + 2) := by
    by_cases hm : m + 2 ≤ 2 ^ 53
    · rw [show s * 2 ^ 52 + m + 2 = s * 2 ^ 52 + (m + 2) by omega, value_at s (m + 2) (by omega) hm]
      exact Nat.le_refl _
    · have hm : m + 1 = 2 ^ 53 := by omega
      have := value_at (s + 1) (2 ^ 52 + 1) (by omega) (by omega)
      rw [show s * 2 ^ 52 + m + 2 = (s + 1) * 2 ^ 52 + (2 ^ 52 + 1) by omega, this, Nat.pow_succ 2 s, Nat.mul_comm (2 ^ s),
        ← Nat.mul_assoc]
      exact Nat.mul_le_mul_right _ (by omega)
  have hp := Nat.two_pow_pos s
  rw [e0, e1]
  clear e0 e1
  generalize value (s * 2 ^ 52 + m + 2) = v at *
  generalize 2 ^ s = w at *
  have hmw : m * w + w ≤ 2 ^ 53 * w := by
    have := Nat.mul_le_mul_right w (show m + 1 ≤ 2 ^ 53 by omega)
    rwa [Nat.add_mul, Nat.one_mul] at this
  rw [Nat.add_mul] at e2
  rw [Nat.add_mul m 1 w]
  generalize m * w = x at *
  omega

theorem midpoint_steps (n k : Nat) (hk : 0 < k) :
    (value n + value (n + 1)) * (2 ^ 53 + 1) ^ k < (value (n + k) + value (n + k + 1)) * (2 ^ 53) ^ k := by
  induction k with
  | zero => omega
  | succ k ih =>
    have h1 := midpoint_step (n + k)
    rw [Nat.pow_succ, Nat.pow_succ]
    by_cases h0 : k = 0
    · subst h0; simpa using midpoint_step n
    · have h2 := ih (by omega)
      calc (value n + value (n + 1)) * ((2 ^ 53 + 1) ^ k * (2 ^ 53 + 1))
          = (value n + value (n + 1)) * (2 ^ 53 + 1) ^ k * (2 ^ 53 + 1) := by rw [Nat.mul_assoc]
        _ < (value (n + k) + value (n + k + 1)) * (2 ^ 53) ^ k * (2 ^ 53 + 1) :=
            Nat.mul_lt_mul_of_pos_right h2 (by decide)
        _ = (value (n + k) + value (n + k + 1)) * (2 ^ 53 + 1) * (2 ^ 53) ^ k := by rw [Nat.mul_right_comm]
        _ ≤ (value (n + k + 1) + value (n + k + 2)) * 2 ^ 53 * (2 ^ 53) ^ k :=
            Nat.mul_le_mul_right _ (Nat.le_of_lt h1)
        _ = _ := by rw [Nat.mul_assoc, Nat.mul_comm (2 ^ 53)]; rfl

/-- A number within `k` factors of another rounds to a double within `k` steps. -/
theorem Near.steps {n g k a b a' b' : Nat} (hk : 0 < k) (hb : 0 < b) (hb' : 0 < b') (h : Below k a b a' b')
    (hn : Near n a' b') (hg : Near g a b) : g ≤ n + k := by
  apply Decidable.byContradiction
  intro hlt
  have h1 : (value (n + k) + value (n + k + 1)) * b ≤ 2 * a := by
    have h2 : (value (g - 1) + value g) * b ≤ 2 * a := by
      rcases hg.1 with h | h | h
      · omega
      · exact Nat.le_of_lt h
      · exact Nat.le_of_eq h.1
    refine Nat.le_trans (Nat.mul_le_mul_right _ (Nat.add_le_add (value_le (by omega)) (value_le (by omega)))) h2
  have h2 : 2 * a' ≤ (value n + value (n + 1)) * b' := by
    rcases hn.2 with h | h
    · exact Nat.le_of_lt h
    · exact Nat.le_of_eq h.1
  have h3 := midpoint_steps n k hk
  unfold Below at h
  generalize value (n + k) + value (n + k + 1) = X at *
  generalize value n + value (n + 1) = Y at *
  generalize (2 ^ 53) ^ k = N at *
  generalize (2 ^ 53 + 1) ^ k = M at *
  have e1 : X * N * (b * b') ≤ Y * M * (b * b') := by
    calc X * N * (b * b') = X * b * (b' * N) := by ac_rfl
      _ ≤ 2 * a * (b' * N) := Nat.mul_le_mul_right _ h1
      _ = 2 * (a * b' * N) := by ac_rfl
      _ ≤ 2 * (a' * b * M) := Nat.mul_le_mul_left _ h
      _ = 2 * a' * (b * M) := by ac_rfl
      _ ≤ Y * b' * (b * M) := Nat.mul_le_mul_right _ h2
      _ = Y * M * (b * b') := by ac_rfl
  have := Nat.le_of_mul_le_mul_right e1 (Nat.mul_pos hb hb')
  omega

/-- Rounding in the normal range is one factor. -/
theorem Near.below {n a b : Nat} (h : Near n a b) (hb : 0 < b) (ha : 2 ^ 52 * b ≤ a) :
    Below 1 (value n) 1 a b ∧ Below 1 a b (value n) 1 := by
  have hn : 2 ^ 52 ≤ n := by
    have h0 := near_value (2 ^ 52) b hb
    refine h0.mono h hb hb (Nat.mul_le_mul_right _ ?_)
    have : value (2 ^ 52) = 2 ^ 52 := by decide
    rw [this]; exact ha
  obtain ⟨s, m, rfl, h1, h2⟩ := pattern n
  have hm : 2 ^ 52 ≤ m := by rcases h1 with rfl | h1 <;> omega
  have e0 : value (s * 2 ^ 52 + m) = m * 2 ^ s := value_at s m h1 (by omega)
  have e1 : value (s * 2 ^ 52 + m + 1) = (m + 1) * 2 ^ s := by
    rw [Nat.add_assoc]; exact value_at s (m + 1) (by omega) (by omega)
  have up : 2 * a ≤ (2 * m + 1) * (2 ^ s * b) := by
    have : 2 * a ≤ (value (s * 2 ^ 52 + m) + value (s * 2 ^ 52 + m + 1)) * b := by
      rcases h.2 with h | h
      · exact Nat.le_of_lt h
      · exact Nat.le_of_eq h.1
    rw [e0, e1, ← Nat.add_mul, Nat.mul_assoc] at this
    rwa [show 2 * m + 1 = m + (m + 1) by omega]
  have down : (value (s * 2 ^ 52 + m - 1) + m * 2 ^ s) * b ≤ 2 * a := by
    rw [← e0]
    rcases h.1 with h | h | h
    · omega
    · exact Nat.le_of_lt h
    · exact Nat.le_of_eq h.1
  unfold Below
  rw [e0, Nat.pow_one, Nat.pow_one, Nat.mul_one]
  constructor
  · by_cases hle : m * 2 ^ s * b ≤ a
    · exact Nat.mul_le_mul hle (by decide)
    by_cases hm' : m = 2 ^ 52
    · subst hm'
      cases s with
      | zero => exfalso; apply hle; simpa using ha
      | succ s =>
        have e2 : value ((s + 1) * 2 ^ 52 + 2 ^ 52 - 1) = (2 ^ 53 - 1) * 2 ^ s := by
          rw [show (s + 1) * 2 ^ 52 + 2 ^ 52 - 1 = s * 2 ^ 52 + (2 ^ 53 - 1) by omega]
          exact value_at s _ (by omega) (by omega)
        have e3 : 2 ^ 52 * 2 ^ (s + 1) * b = 2 ^ 53 * (2 ^ s * b) := by
          rw [Nat.pow_succ 2 s, show 2 ^ 53 = 2 ^ 52 * 2 from rfl]; ac_rfl
        rw [e2, Nat.add_mul, e3, Nat.mul_assoc] at down
        rw [e3]
        generalize 2 ^ s * b = w at *
        omega
    · have e2 : value (s * 2 ^ 52 + m - 1) = (m - 1) * 2 ^ s := by
        rw [show s * 2 ^ 52 + m - 1 = s * 2 ^ 52 + (m - 1) by omega]
        exact value_at s _ (by omega) (by omega)
      rw [e2, ← Nat.add_mul, Nat.mul_assoc] at down
      rw [Nat.mul_assoc m]
      have hd : (2 * m - 1) * (2 ^ s * b) ≤ 2 * a := by rwa [show 2 * m - 1 = m - 1 + m by omega]
      generalize 2 ^ s * b = w at *
      have h3 : m * w * 2 ^ 53 * 2 ≤ a * (2 ^ 53 + 1) * 2 := by
        calc m * w * 2 ^ 53 * 2 = m * 2 ^ 54 * w := by
              rw [Nat.mul_assoc (m * w), Nat.mul_right_comm]
          _ ≤ (2 * m - 1) * (2 ^ 53 + 1) * w := Nat.mul_le_mul_right _ (by omega)
          _ = (2 * m - 1) * w * (2 ^ 53 + 1) := by rw [Nat.mul_right_comm]
          _ ≤ 2 * a * (2 ^ 53 + 1) := Nat.mul_le_mul_right _ hd
          _ = _ := by rw [Nat.mul_comm 2, Nat.mul_right_comm]
      omega
  · rw [Nat.mul_assoc m]
    generalize 2 ^ s * b = w at *
    have h3 : a * 2 ^ 53 * 2 ≤ m * w * (2 ^ 53 + 1) * 2 := by
      calc a * 2 ^ 53 * 2 = 2 * a * 2 ^ 53 := by rw [Nat.mul_comm 2, Nat.mul_right_comm]
        _ ≤ (2 * m + 1) * w * 2 ^ 53 := Nat.mul_le_mul_right _ up
        _ = (2 * m + 1) * 2 ^ 53 * w := by rw [Nat.mul_right_comm]
        _ ≤ m * (2 ^ 53 + 1) * 2 * w := Nat.mul_le_mul_right _ (by omega)
        _ = _ := by ac_rfl
    omega

/-! ### Reading -/

theorem unit_big : 2 ^ 52 ≤ unit := by
  unfold unit; exact Nat.pow_le_pow_right (by decide) (by decide)

theorem rnd_near {a b : Nat} (hb : 0 < b) (h : rnd a b < infinity) : Near (rnd a b) a b := by
  have e : rnd a b = roundPat a b := by unfold rnd at *; omega
  rw [e]; exact near_roundPat a b hb

theorem ofNat_below {s : Nat} (h0 : 0 < s) (hs : s < 2 ^ 64) :
    Below 1 (value (ofNat s)) 1 (s * unit) 1 ∧ Below 1 (s * unit) 1 (value (ofNat s)) 1 :=
  (rnd_near (by decide) (ofNat_finite' hs)).below (by decide)
    (by rw [Nat.mul_one]; exact Nat.le_trans unit_big (Nat.le_mul_of_pos_left _ h0))

theorem pow10_finite {k : Nat} (h : k ≤ 308) : pow10 k < infinity := by
  have h1 : pow10 308 < infinity := by decide +kernel
  refine Nat.lt_of_le_of_lt ?_ h1
  unfold pow10
  exact rnd_mono (by decide) (by decide)
    (Nat.mul_le_mul_right _ (Nat.mul_le_mul_right _ (Nat.pow_le_pow_right (by decide) h)))

theorem pow10_below {k : Nat} (h : k ≤ 308) :
    Below 1 (value (pow10 k)) 1 (10 ^ k * unit) 1 ∧ Below 1 (10 ^ k * unit) 1 (value (pow10 k)) 1 :=
  (rnd_near (by decide) (pow10_finite h)).below (by decide)
    (by rw [Nat.mul_one]; exact Nat.le_trans unit_big (Nat.le_mul_of_pos_left _ (Nat.pow_pos (by decide))))

theorem Below.mul {a b a' b' c d c' d' j k : Nat} (h : Below j a b a' b') (h' : Below k c d c' d') :
    Below (j + k) (a * c) (b * d) (a' * c') (b' * d') := by
  unfold Below at *
  rw [Nat.pow_add, Nat.pow_add]
  calc a * c * (b' * d') * ((2 ^ 53) ^ j * (2 ^ 53) ^ k)
      = (a * b' * (2 ^ 53) ^ j) * (c * d' * (2 ^ 53) ^ k) := by ac_rfl
    _ ≤ (a' * b * (2 ^ 53 + 1) ^ j) * (c' * d * (2 ^ 53 + 1) ^ k) := Nat.mul_le_mul h h'
    _ = _ := by ac_rfl

theorem Below.inv {a b a' b' k : Nat} (h : Below k a b a' b') : Below k b' a' b a := by
  unfold Below at *
  rw [Nat.mul_comm b', Nat.mul_comm b]; exact h

theorem Below.congr {a b a' b' c d c' d' k : Nat} (h : Below k a b a' b') (hb : 0 < b) (hb' : 0 < b')
    (e : a * d = c * b) (e' : a' * d' = c' * b') : Below k c d c' d' := by
  unfold Below at *
  refine Nat.le_of_mul_le_mul_right (c := b * b') ?_ (Nat.mul_pos hb hb')
  calc c * d' * (2 ^ 53) ^ k * (b * b') = (c * b) * (d' * b' * (2 ^ 53) ^ k) := by ac_rfl
    _ = (a * b' * (2 ^ 53) ^ k) * (d * d') := by rw [← e]; ac_rfl
    _ ≤ (a' * b * (2 ^ 53 + 1) ^ k) * (d * d') := Nat.mul_le_mul_right _ h
    _ = (a' * d') * (b * d * (2 ^ 53 + 1) ^ k) := by ac_rfl
    _ = _ := by rw [e']; ac_rfl

theorem Below.le {a b a' b' j k : Nat} (h : Below j a b a' b') (hk : j ≤ k) : Below k a b a' b' := by
  obtain ⟨i, rfl⟩ := Nat.exists_eq_add_of_le hk
  unfold Below at *
  rw [Nat.pow_add, Nat.pow_add, ← Nat.mul_assoc, ← Nat.mul_assoc]
  exact Nat.mul_le_mul h (Nat.pow_le_pow_left (by decide) _)

/-- Within `k` factors in both directions.
For the doubles in the values of bsp-server/src/message.rs:37, 44. -/
def Close (k a b a' b' : Nat) : Prop := Below k a b a' b' ∧ Below k a' b' a b

theorem Close.steps {n g k a b a' b' : Nat} (hk : 0 < k) (hb : 0 < b) (hb' : 0 < b') (h : Close k a b a' b')
    (hn : Near n a' b') (hg : Near g a b) : dist g n ≤ k := by
  have h1 := Near.steps hk hb hb' h.1 hn hg
  have h2 := Near.steps hk hb' hb h.2 hg hn
  unfold dist; omega

theorem Below.scale {a b a' b' k : Nat} (h : Below k a b a' b') (t : Nat) : Below k (a * t) b (a' * t) b' := by
  unfold Below at *
  calc a * t * b' * (2 ^ 53) ^ k = a * b' * (2 ^ 53) ^ k * t := by ac_rfl
    _ ≤ a' * b * (2 ^ 53 + 1) ^ k * t := Nat.mul_le_mul_right _ h
    _ = _ := by ac_rfl

theorem Below.shrink {a b a' b' k : Nat} (h : Below k a b a' b') (t : Nat) : Below k a (b * t) a' (b' * t) := by
  unfold Below at *
  calc a * (b' * t) * (2 ^ 53) ^ k = a * b' * (2 ^ 53) ^ k * t := by ac_rfl
    _ ≤ a' * b * (2 ^ 53 + 1) ^ k * t := Nat.mul_le_mul_right _ h
    _ = _ := by ac_rfl

theorem div_close {x p a c j k : Nat} (hx : Close j (value x) 1 (a * unit) 1) (hp : Close k (value p) 1 (c * unit) 1)
    (hp0 : 0 < value p) (hc : 0 < c) : Close (j + k) (value x * unit) (value p) (a * unit) c := by
  have hu := unit_pos
  have h1 := (hx.1.mul hp.2.inv).scale unit
  have h2 := (hx.2.mul hp.1.inv).scale unit
  simp only [Nat.mul_one, Nat.one_mul] at h1 h2
  have hcu : 0 < c * unit := Nat.mul_pos hc hu
  exact ⟨h1.congr hp0 hcu rfl (by ac_rfl), h2.congr hcu hp0 (by ac_rfl) rfl⟩

theorem mul_close {x p a c j k : Nat} (hx : Close j (value x) 1 (a * unit) 1) (hp : Close k (value p) 1 (c * unit) 1) :
    Close (j + k) (value x * value p) unit (a * c * unit) 1 := by
  have hu := unit_pos
  have h1 := (hx.1.mul hp.1).shrink unit
  have h2 := (hx.2.mul hp.2).shrink unit
  simp only [Nat.one_mul] at h1 h2
  exact ⟨h1.congr hu hu rfl (by ac_rfl), h2.congr hu hu (by ac_rfl) rfl⟩

theorem pow10_pos (k : Nat) : 0 < value (pow10 k) := Nat.lt_of_lt_of_le unit_pos (unit_le_pow10 k)

theorem ofNat_zero : ofNat 0 = 0 := by decide +kernel

theorem value_pos_of {n : Nat} (h : n ≠ 0) : 0 < value n := by
  have := value_lt (m := 0) (n := n) (by omega)
  omega

/-- Whatever the digits and the exponent: two steps. -/
theorem fromParts_close {s n g : Nat} {e : Int} (hs : s < 2 ^ 64) (he : -308 ≤ e) (hn : NearestDec n s e)
    (h : fromParts s e = some g) : dist g n ≤ 2 := by
  have hp : ∀ j, 0 < 10 ^ j := fun j => Nat.pow_pos (by decide)
  have hgf := fromParts_finite hs h
  have hnear := Near.of_nearest hn (hp _)
  unfold fromParts at h
  rw [scale] at h
  rcases Nat.eq_zero_or_pos s with rfl | h0
  · have hz : n = 0 := by
      have := near_value 0 (10 ^ (-e).toNat) (hp _)
      rw [value_zero] at this
      refine Near.unique hnear ?_ (hp _)
      simpa using this
    have hg : g = 0 := by
      rw [ofNat_zero] at h
      have m0 : mul 0 (pow10 e.natAbs) = 0 := by
        unfold mul; rw [value_zero, rnd_value (n := 0) unit_pos (by simp [value_zero])]; rfl
      have d0 : div 0 (pow10 e.natAbs) = 0 := by
        unfold div; rw [value_zero, rnd_value (n := 0) (pow10_pos _) (by simp [value_zero])]; rfl
      rw [m0, d0] at h
      repeat' split at h
      all_goals first | (cases h; done) | (cases h; rfl) | omega
    subst hz; subst hg; decide
  · have hx := ofNat_below h0 hs
    split at h
    · rename_i hle
      have hq := pow10_below hle
      split at h
      · rename_i hpos
        split at h
        · cases h
        rename_i hfin
        cases h
        have hg := rnd_near unit_pos (a := value (ofNat s) * value (pow10 e.natAbs)) (by unfold mul at hfin; omega)
        have e1 : e.toNat = e.natAbs := by omega
        have e2 : (-e).toNat = 0 := by omega
        rw [e1, e2, Nat.pow_zero] at hnear
        exact (mul_close hx hq).steps (by decide) unit_pos (by decide) hnear hg
      · cases h
        have hg := rnd_near (pow10_pos e.natAbs) (a := value (ofNat s) * unit) hgf
        have e1 : e.toNat = 0 := by omega
        have e2 : (-e).toNat = e.natAbs := by omega
        rw [e1, e2, Nat.pow_zero, Nat.mul_one] at hnear
        exact (div_close hx hq (pow10_pos _) (hp _)).steps (by decide) (pow10_pos _) (hp _) hnear hg
    · split at h
      · rename_i hz
        exfalso
        have := hx.2
        unfold Below at this
        rw [hz, value_zero] at this
        have h1 : 0 < s * unit := Nat.mul_pos h0 unit_pos
        simp only [Nat.pow_one, Nat.mul_one, Nat.zero_mul] at this
        omega
      · split at h
        · cases h
        · omega

/-- C106: a literal whose digits fit 64 bits is read as a double at most two steps away from the one nearest to it
(unless it is out of range, or the exponent is below -308). -/
theorem C106_read (cs : List Char) (neg : Bool) (s : Nat) (e : Int) (h : Literal cs neg s e) (hs : s < 2 ^ 64)
    (he : -308 ≤ e) (he' : e ≤ 2 ^ 29) (hl : cs.length ≤ 2 ^ 29) (n : Nat) (hn : NearestDec n s e) (f : F64)
    (hf : read cs = some f) : f.neg = neg ∧ dist f.mag n ≤ 2 := by
  rw [read_literal h hs hl (by omega)] at hf
  obtain ⟨g, hg, rfl⟩ := Option.map_eq_some_iff.1 hf
  have hgf := fromParts_finite hs hg
  obtain ⟨h1, h2, _⟩ := make_parts (neg := neg) hgf
  refine ⟨h2, ?_⟩
  rw [h1]
  exact fromParts_close hs he hn hg

/-! ### What was written -/

theorem fives_big : 2 * 10 ^ 750 < fives := by unfold fives; decide +kernel

theorem multiple_inside {lo hi w : Nat} (hw : 0 < w) (h : lo + 2 * w < hi) :
    ∃ d, lo < 2 * (d * w) ∧ 2 * (d * w) < hi := by
  refine ⟨lo / (2 * w) + 1, ?_, ?_⟩
  all_goals
    have h1 := Nat.lt_div_mul_add (a := lo) (b := 2 * w) (by omega)
    have h2 := Nat.div_mul_le_self lo (2 * w)
    have e : 2 * ((lo / (2 * w) + 1) * w) = lo / (2 * w) * (2 * w) + 2 * w := by
      rw [Nat.add_mul, Nat.one_mul, Nat.mul_add, Nat.mul_left_comm]
    omega

/-- Nothing is written with an exponent below -324. -/
theorem shortest_exp {n : Nat} (hn : 0 < n) (hf : n < infinity) : -324 ≤ (shortest n).2 := by
  obtain ⟨_, h2, _⟩ := search_found hn hf
  have hw : 0 < 10 ^ 750 := Nat.pow_pos (by decide)
  have hb := fives_big
  have h1 := value_lt (m := n - 1) (n := n) (by omega)
  have h3 := value_succ_lt n
  have hlen : (value (n - 1) + value n) * fives + 2 * 10 ^ 750 < (value n + value (n + 1)) * fives := by
    have : (value (n - 1) + value n) * fives + 1 * fives ≤ (value n + value (n + 1)) * fives := by
      rw [← Nat.add_mul]; exact Nat.mul_le_mul_right _ (by omega)
    generalize 10 ^ 750 = w at *
    omega
  obtain ⟨d, k1, k2⟩ := multiple_inside hw hlen
  have hin : Inside n d 750 := ⟨.inr (.inl k1), .inl k2⟩
  have := h2 750 d hin
  have e : (shortest n).2 = ((search n 1400).2 : Int) - 1074 := rfl
  omega

/-- One or two digits below 10^-308: read exactly. -/
theorem small_exact : ∀ s < 3, ∀ i : Nat, i < 16 → fromParts s (-309 - (i : Int)) = some (roundPat (s * unit) (10 ^ (309 + i))) := by
  decide +kernel

theorem div308 {s : Nat} (h0 : 3 ≤ s) : 2 ^ 52 * value (pow10 308) ≤ value (ofNat s) * unit := by
  have h3 : 2 ^ 52 * value (pow10 308) ≤ value (ofNat 3) * unit := by decide +kernel
  refine Nat.le_trans h3 (Nat.mul_le_mul_right _ (value_le ?_))
  unfold ofNat
  exact rnd_mono (by decide) (by decide) (Nat.mul_le_mul_right _ (Nat.mul_le_mul_right _ h0))

theorem Close.trans' {a b c d a' b' j k : Nat} (h : Close j a b c d) (h' : Close k c d a' b') (hc : 0 < c) (hd : 0 < d) :
    Close (j + k) a b a' b' := by
  have key : ∀ {a b c d a' b' j k : Nat}, Below j a b c d → Below k c d a' b' → 0 < c → 0 < d → Below (j + k) a b a' b' := by
    intro a b c d a' b' j k h h' hc hd
    unfold Below at *
    rw [Nat.pow_add, Nat.pow_add]
    refine Nat.le_of_mul_le_mul_right (c := c * d) ?_ (Nat.mul_pos hc hd)
    calc a * b' * ((2 ^ 53) ^ j * (2 ^ 53) ^ k) * (c * d) = (a * d * (2 ^ 53) ^ j) * (c * b' * (2 ^ 53) ^ k) := by ac_rfl
      _ ≤ (c * b * (2 ^ 53 + 1) ^ j) * (a' * d * (2 ^ 53 + 1) ^ k) := Nat.mul_le_mul h h'
      _ = _ := by ac_rfl
  refine ⟨key h.1 h'.1 hc hd, ?_⟩
  rw [Nat.add_comm]
  exact key h'.2 h.2 hc hd

theorem fromParts_low {s n g : Nat} {e : Int} (h0 : 0 < s) (hs : s < 2 ^ 64) (he : e < -308) (he' : -324 ≤ e)
    (hn : NearestDec n s e) (h : fromParts s e = some g) : dist g n ≤ 3 := by
  have hp : ∀ j, 0 < 10 ^ j := fun j => Nat.pow_pos (by decide)
  have hgf := fromParts_finite hs h
  have hnear := Near.of_nearest hn (hp _)
  obtain ⟨i, hi, rfl⟩ : ∃ i : Nat, i < 16 ∧ e = -309 - (i : Int) := ⟨(-309 - e).toNat, by omega, by omega⟩
  have e1 : (-309 - (i : Int)).toNat = 0 := by omega
  have e2 : (-(-309 - (i : Int))).toNat = 309 + i := by omega
  rw [e1, e2, Nat.pow_zero, Nat.mul_one] at hnear
  by_cases h3 : s < 3
  · rw [small_exact s h3 i hi] at h
    cases h
    have := Near.unique (near_roundPat (s * unit) _ (hp (309 + i))) hnear (hp _)
    rw [this]
    unfold dist; omega
  unfold fromParts at h
  have hc : (-309 - (i : Int)).natAbs / 308 + 1 = 2 := by omega
  rw [hc, scale, if_neg (by omega)] at h
  have hx := ofNat_below h0 hs
  rw [if_neg (by
    intro hz
    have h1 := div308 (s := s) (by omega)
    rw [hz, value_zero] at h1
    have := pow10_pos 308
    omega), if_neg (by omega)] at h
  have hd : div (ofNat s) (pow10 308) < infinity := Nat.lt_of_le_of_lt (div_le (ofNat_finite' hs)) (ofNat_finite' hs)
  have hd1 : Close 1 (value (div (ofNat s) (pow10 308))) 1 (value (ofNat s) * unit) (value (pow10 308)) :=
    (rnd_near (pow10_pos 308) hd).below (pow10_pos 308) (div308 (by omega))
  have hd2 := div_close (a := s) (c := 10 ^ 308) hx (pow10_below (Nat.le_refl _)) (pow10_pos _) (hp _)
  have hv : 0 < value (ofNat s) * unit := by
    have h1 := div308 (s := s) (by omega)
    have := pow10_pos 308
    omega
  have hd3 := hd1.trans' hd2 hv (pow10_pos _)
  generalize div (ofNat s) (pow10 308) = x at *
  rw [scale, if_pos (by omega), if_neg (by omega)] at h
  cases h
  have e3 : (-309 - (i : Int) + 308).natAbs = i + 1 := by omega
  rw [e3] at hgf ⊢
  have hq := (pow10_exact (k := i + 1) (by omega)).1
  have hg := rnd_near (pow10_pos (i + 1)) (a := value x * unit) hgf
  refine Close.steps (k := 3) (by decide) (pow10_pos (i + 1)) (hp (309 + i)) ?_ hnear hg
  rw [hq]
  have hu := unit_pos
  have hpe : 10 ^ (309 + i) = 10 ^ 308 * 10 ^ (i + 1) := by
    rw [← Nat.pow_add]; congr 1; omega
  have b1 := (hd3.1.shrink (10 ^ (i + 1)))
  have b2 := (hd3.2.shrink (10 ^ (i + 1)))
  rw [Nat.one_mul] at b1 b2
  rw [hpe]
  generalize 10 ^ 308 = P at *
  have hP : 0 < P * 10 ^ (i + 1) := by rw [← hpe]; exact hp _
  exact ⟨b1.congr (hp _) hP (by ac_rfl) rfl, b2.congr hP (hp _) rfl (by ac_rfl)⟩

theorem reread_three (f g : F64) (hf : f.Finite) (h : read (print f) = some g) : g.neg = f.neg ∧ dist g.mag f.mag ≤ 3 := by
  obtain ⟨s, e, h1, h2, h3, h4⟩ := C101_text f hf
  have hf' : f.mag < infinity := hf
  by_cases h0 : f.mag = 0
  · have hl : Literal (print f) f.neg 0 (-1) := by
      unfold print
      rw [if_pos hf', h0]
      cases f.neg with
      | true => exact literal_sign literal_zero
      | false => exact literal_zero
    obtain ⟨a, b⟩ := C106_read _ _ _ _ hl (by decide) (by decide) (by decide) (by omega) f.mag
      (by rw [h0]; exact nearestDec_zero _) g h
    exact ⟨a, by omega⟩
  · have hn : 0 < f.mag := by omega
    obtain ⟨s', e', k1, _, _, _, k5, k6, k7, k8⟩ := printMag_spec hn hf'
    have hl : Literal (print f) f.neg s' e' := by
      unfold print
      rw [if_pos hf']
      cases f.neg with
      | true => exact literal_sign k1
      | false => exact k1
    obtain ⟨_, rfl, rfl⟩ := Literal.unique h1 hl
    by_cases he : -308 ≤ e
    · obtain ⟨a, b⟩ := C106_read _ _ _ _ h1 (by omega) he (by omega) (by omega) f.mag h2 g h
      exact ⟨a, by omega⟩
    · have hx := shortest_exp hn hf'
      have hs0 : 0 < s := by
        rcases Nat.eq_zero_or_pos s with rfl | hs0
        · exact absurd (nearestDec_unique h2 (nearestDec_zero e)) h0
        · exact hs0
      rw [read_literal h1 (by omega) (by omega) (by omega)] at h
      obtain ⟨x, hx', rfl⟩ := Option.map_eq_some_iff.1 h
      have hgf := fromParts_finite (by omega) hx'
      obtain ⟨m1, m2, _⟩ := make_parts (neg := f.neg) hgf
      refine ⟨m2, ?_⟩
      rw [m1]
      exact fromParts_low hs0 (by omega) (by omega) (by omega) h2 hx'

theorem near_tiny {n s j k : Nat} (h : Near n (s * unit) (10 ^ j)) (hs : s ≤ 10 ^ 17) (hj : 17 + k ≤ j) :
    n ≤ roundPat unit (10 ^ k) := by
  have hp : ∀ j, 0 < 10 ^ j := fun j => Nat.pow_pos (by decide)
  obtain ⟨i, rfl⟩ := Nat.exists_eq_add_of_le hj
  refine h.mono (near_roundPat unit (10 ^ k) (hp k)) (hp _) (hp _) ?_
  have h17 : s ≤ 10 ^ 17 * 10 ^ i := Nat.le_trans hs (Nat.le_mul_of_pos_right _ (hp i))
  rw [Nat.pow_add, Nat.pow_add]
  generalize 10 ^ 17 = a at *
  generalize 10 ^ k = b at *
  generalize 10 ^ i = c at *
  calc s * unit * b ≤ a * c * unit * b := Nat.mul_le_mul_right _ (Nat.mul_le_mul_right _ h17)
    _ = _ := by ac_rfl

theorem reread_two (f g : F64) (hf : f.Finite) (h : read (print f) = some g) (hb : unit ≤ value f.mag * 10 ^ 291) :
    dist g.mag f.mag ≤ 2 := by
  have hf' : f.mag < infinity := hf
  have h0 : 0 < f.mag := by
    rcases Nat.eq_zero_or_pos f.mag with h0 | h0
    · rw [h0, value_zero] at hb
      have := unit_pos
      omega
    · exact h0
  obtain ⟨s, e, k1, _, _, _, k5, k6, k7, k8⟩ := printMag_spec h0 hf'
  have hl : Literal (print f) f.neg s e := by
    unfold print
    rw [if_pos hf']
    cases f.neg with
    | true => exact literal_sign k1
    | false => exact k1
  obtain ⟨s', e', h1, h2, h3, h4⟩ := C101_text f hf
  obtain ⟨_, rfl, rfl⟩ := Literal.unique h1 hl
  refine (C106_read _ _ _ _ h1 (by omega) ?_ (by omega) (by omega) f.mag h2 g h).2
  apply Decidable.byContradiction
  intro he
  have hp : ∀ j, 0 < 10 ^ j := fun j => Nat.pow_pos (by decide)
  have hnear := Near.of_nearest h2 (hp _)
  have e1 : e'.toNat = 0 := by omega
  rw [e1, Nat.pow_zero, Nat.mul_one] at hnear
  have hle := near_tiny (k := 292) hnear (by omega) (by omega)
  have hv := Nat.le_trans hb (Nat.mul_le_mul_right (10 ^ 291) (value_le hle))
  exact absurd hv (by decide +kernel)

/-- C106: what was written for a double is read as a finite double with the same sign and at most three steps away from
it, and at most two if it is at least 1e-291 (in magnitude). -/
theorem C106_reread (f : F64) (hf : f.Finite) :
    ∃ g, read (print f) = some g ∧ g.Finite ∧ g.neg = f.neg ∧ dist g.mag f.mag ≤ 3 ∧
      (unit ≤ value f.mag * 10 ^ 291 → dist g.mag f.mag ≤ 2) := by
  obtain ⟨g, h, hg, _⟩ := C103_read f hf
  obtain ⟨h1, h2⟩ := reread_three f g hf h
  exact ⟨g, h, hg, h1, h2, reread_two f g hf h⟩

/-- C106: two steps do occur, in either direction: 9.580932877161335e-60 is read back as 9.580932877161337e-60 and
1.1409267194622301e-38 as 1.1409267194622299e-38. -/
theorem C106_two : read (print ⟨0x33aecabbfec79673⟩) = some ⟨0x33aecabbfec79675⟩ ∧
    read (print ⟨0x380f0f1948ed7d71⟩) = some ⟨0x380f0f1948ed7d6f⟩ := by decide +kernel

example : ∃ g, read (print ⟨0x33aecabbfec79673⟩) = some g ∧ g.Finite ∧ g.neg = false ∧ dist g.mag 0x33aecabbfec79673 ≤ 2 := by
  obtain ⟨g, h1, h2, h3, _, h5⟩ := C106_reread ⟨0x33aecabbfec79673⟩ (by decide +kernel)
  exact ⟨g, h1, h2, h3, h5 (by decide +kernel)⟩

example (f : F64) (h : read "-12.50E+3".toList = some f) (n : Nat) (hn : NearestDec n 1250 1) :
    f.neg = true ∧ dist f.mag n ≤ 2 :=
  C106_read _ _ _ _ literal_example (by decide) (by decide) (by decide) (by decide) n hn f h

end Double

/-! ### Passing on again and again -/

section
attribute [local instance] Ext.sample FloatText.serdeJson
open Spec Frame

/-- What the next of a chain of readers gets of a message, each of which writes what it has read.
Specification about bsp-server/src/message.rs:32-49. -/
def Spec.hop (m : Message) : Option Message :=
  match readMsg (⟨write m, false⟩ : Flat) with
  | .item m' _ => some m'
  | _ => none

/-- The same after `k` of them. Specification about bsp-server/src/message.rs:32-49. -/
def Spec.hops : Nat → Message → Option Message
  | 0, m => some m
  | k + 1, m => (hop m).bind (hops k)

/-- A response with 3.6705814860873678e171 in its result. An example for bsp-server/src/message.rs:42-49. -/
def restlessA : Message :=
  .response { id := .i32 3, result := some (.ofJson (.float ⟨0x638e64dab59e60cf⟩)), error := none }

/-- A response with 3.670581486087368e171 in its result. An example for bsp-server/src/message.rs:42-49. -/
def restlessB : Message :=
  .response { id := .i32 3, result := some (.ofJson (.float ⟨0x638e64dab59e60d0⟩)), error := none }

theorem hopA : hop restlessA = some restlessB := by
  rw [hop, ← List.append_nil (write restlessA), readMsg, readText_write restlessA (by decide +kernel)]
  have h1 : Text.parse (msgText restlessA) = some restlessB.enc := by decide +kernel
  have h2 : Message.dec restlessB.enc = some restlessB := by rfl
  simp only [h1, Option.bind_some, h2]

theorem hopB : hop restlessB = some restlessA := by
  rw [hop, ← List.append_nil (write restlessB), readMsg, readText_write restlessB (by decide +kernel)]
  have h1 : Text.parse (msgText restlessB) = some restlessA.enc := by decide +kernel
  have h2 : Message.dec restlessA.enc = some restlessA := by rfl
  simp only [h1, Option.bind_some, h2]

/-- C106: a message passed on again and again need not settle: the double in this one changes at every step, for ever. -/
theorem C106_restless (k : Nat) : hops (2 * k) restlessA = some restlessA ∧ hops (2 * k + 1) restlessA = some restlessB ∧
    restlessA ≠ restlessB := by
  have hne : restlessA ≠ restlessB := fun h => absurd (congrArg Message.enc h) (by decide)
  have hst : ∀ k, hops (2 * k) restlessA = some restlessA := by
    intro k
    induction k with
    | zero => rfl
    | succ k ih => rw [show 2 * (k + 1) = 2 * k + 1 + 1 by omega, hops, hopA, Option.bind_some, hops, hopB, Option.bind_some, ih]
  have hst' : ∀ k, hops (2 * k + 1) restlessA = some restlessB := by
    intro k
    induction k with
    | zero => rw [hops, hopA]; rfl
    | succ k ih =>
      rw [show 2 * (k + 1) + 1 = 2 * k + 1 + 1 + 1 by omega, hops, hopA, Option.bind_some, hops, hopB, Option.bind_some, ih]
  exact ⟨hst k, hst' k, hne⟩

end
end Bsp
