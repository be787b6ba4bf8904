/-
C143: a chain of relays with finite buffers.
-/
import Verif.Narrow
import Verif.Props.Chain
import Verif.Props.Flow

set_option linter.unusedSectionVars false

namespace Bsp
open Frame Transport Link
open Bridge (Hand Carry Who)
open Flow (Caps Asks Lets)

section
variable [LawfulExt] [FloatText]
variable {c : Nat → Caps} {kc : Kind} {kl : Nat → Kind} {n : Nat}

/-! ### Runs with finite buffers are runs -/

theorem narrow_chain {w : Chain.World} (h : Narrow.Reachable c kc kl n w) : Chain.Reachable kc kl n w := by
  induction h with
  | start => exact .start
  | step _ hs ih => exact .step ih hs.step

theorem narrow_steps {w w' : Chain.World} {xs : List Who} (h : Narrow.Steps c kc kl n w xs w')
    (hr : Narrow.Reachable c kc kl n w) : Narrow.Reachable c kc kl n w' := by
  induction h with
  | nil => exact hr
  | snoc _ hs ih => exact .step ih hs

theorem narrow_runs {w w' : Chain.World} {xs : List Who} (h : Narrow.Steps c kc kl n w xs w')
    (hf : ∀ x ∈ xs, x.free = false) : Chain.Runs kc kl n w w' := by
  induction h with
  | nil => exact .nil _
  | snoc _ hs ih =>
    exact .snoc (ih fun x hx => hf x (List.mem_append_left _ hx)) hs.step (hf _ (by simp))

theorem lets_refl (d : Caps) (l : Link) : Lets d l l := ⟨.inl rfl, .inl rfl, .inl rfl, .inl rfl⟩

/-- The buffers let happen what happens on the two links of a relay. -/
theorem put_lets {w : Chain.World} {j : Nat} {b : Bridge.World} (h1 : Lets (c j) (w.link j) b.left)
    (h2 : Lets (c (j + 1)) (w.link (j + 1)) b.right) (i : Nat) : Lets (c i) (w.link i) ((w.put j b).link i) := by
  by_cases e : i = j
  · subst e; rw [put_self]; exact h1
  · by_cases e' : i = j + 1
    · subst e'; rw [put_next]; exact h2
    · rw [put_other _ _ e e']; exact lets_refl _ _

theorem set_lets {w : Chain.World} {j : Nat} {l : Link} (h : Lets (c j) (w.link j) l) (i : Nat) :
    Lets (c i) (w.link i) ((w.set j l).link i) := by
  by_cases e : i = j
  · subst e; rw [set_self]; exact h
  · rw [set_other _ _ e]; exact lets_refl _ _

theorem carry_bytes {ks kd : Kind} {s d s' d' : Side} {h h' : Hand} (hc : Carry ks kd s h d s' h' d') :
    (s'.io.out = s.io.out ∧ s'.io.arrived = s.io.arrived) ∧ d'.io.out = d.io.out ∧ d'.io.arrived = d.io.arrived := by
  cases hc with
  | recv hs => cases hs; exact ⟨⟨rfl, rfl⟩, rfl, rfl⟩
  | send hs => cases hs; exact ⟨⟨rfl, rfl⟩, rfl, rfl⟩
  | _ => exact ⟨⟨rfl, rfl⟩, rfl, rfl⟩

/-- A thread that is writing, or reading what has not come yet, is what waits for the buffers. -/
theorem link_lets_b {d : Caps} {l : Link} {b : Side} (h1 : b.io.out = l.b.io.out ∨ b.io.out.length ≤ l.a.io.arrived.length + d.toLeft)
    (h2 : b.io.arrived = l.b.io.arrived ∨ Asks l.b.io) : Lets d l { l with b } := ⟨.inl rfl, h1, .inl rfl, h2⟩

theorem link_lets_a {d : Caps} {l : Link} {a : Side} (h1 : a.io.out = l.a.io.out ∨ a.io.out.length ≤ l.b.io.arrived.length + d.toRight)
    (h2 : a.io.arrived = l.a.io.arrived ∨ Asks l.a.io) : Lets d l { l with a } := ⟨h1, .inl rfl, h2, .inl rfl⟩

section
variable {w : Chain.World}

/-- The buffers do not hinder the client or the server in what writes nothing and takes nothing. -/
theorem narrow_client {ev : Link.Ev} {a : Side} (hm : Move kc (kl 0) (w.link 0).a (w.link 0).b ev a)
    (h1 : a.io.out = (w.link 0).a.io.out) (h2 : a.io.arrived = (w.link 0).a.io.arrived) :
    Narrow.Next c kc kl n w (.client ev) (w.set 0 { w.link 0 with a }) :=
  ⟨.client hm, fun i _ => set_lets (link_lets_a (.inl h1) (.inl h2)) i⟩

theorem narrow_server {ev : Link.Ev} {b : Side} (hm : Move (kl n) (Chain.near kc n) (w.link n).b (w.link n).a ev b)
    (h1 : b.io.out = (w.link n).b.io.out) (h2 : b.io.arrived = (w.link n).b.io.arrived) :
    Narrow.Next c kc kl n w (.server ev) (w.set n { w.link n with b }) :=
  ⟨.server hm, fun i _ => set_lets (link_lets_b (.inl h1) (.inl h2)) i⟩

/-- Nothing can happen but what is up to the two programs, where for the server this includes receiving.
Proof helper for bsp-server/src/transporter.rs:14-80. -/
def Hushed (c : Nat → Caps) (kc : Kind) (kl : Nat → Kind) (n : Nat) (w : Chain.World) : Prop :=
  ∀ x w', Narrow.Next c kc kl n w x w' → x.free = true ∨ ∃ m, x = .server (.act (.deliver m))

theorem hushed (hq : Narrow.Quiet c kc kl n w) : Hushed c kc kl n w := fun x w' h => .inl (hq x w' h)

/-- At rest a right side of a link cannot go on. -/
theorem narrow_right (hq : Hushed c kc kl n w) {i : Nat} (hi : i ≤ n) {act : Act} {b : Side}
    (hm : Move (kl i) (Chain.near kc i) (w.link i).b (w.link i).a (.act act) b) (ha : Link.Ev.app (.act act) = false)
    (hd : ∀ m, act ≠ .deliver m)
    (h1 : b.io.out = (w.link i).b.io.out ∨ b.io.out.length ≤ (w.link i).a.io.arrived.length + (c i).toLeft)
    (h2 : b.io.arrived = (w.link i).b.io.arrived ∨ Asks (w.link i).b.io) : False := by
  by_cases e : i < n
  · have := hq .relay _ ⟨.relay e (.near (w := w.around i) hm ha hd),
      fun j _ => put_lets (link_lets_b h1 h2) (lets_refl _ _) j⟩
    rcases this with this | ⟨_, this⟩ <;> cases this
  · have : i = n := by omega
    subst this
    have := hq (.server (.act act)) _ ⟨.server hm, fun j _ => set_lets (link_lets_b h1 h2) j⟩
    rcases this with this | ⟨m, this⟩
    · simp only [Bridge.Who.free, ha] at this
      cases this
    · cases this; exact hd m rfl

/-- At rest a left side of a link cannot go on. -/
theorem narrow_left (hq : Hushed c kc kl n w) {i : Nat} (hi : i ≤ n) {act : Act} {a : Side}
    (hm : Move (Chain.near kc i) (kl i) (w.link i).a (w.link i).b (.act act) a) (ha : Link.Ev.app (.act act) = false)
    (hd : 0 < i → ∀ m, act ≠ .deliver m)
    (h1 : a.io.out = (w.link i).a.io.out ∨ a.io.out.length ≤ (w.link i).b.io.arrived.length + (c i).toRight)
    (h2 : a.io.arrived = (w.link i).a.io.arrived ∨ Asks (w.link i).a.io) : False := by
  cases i with
  | zero =>
    have := hq (.client (.act act)) _ ⟨.client hm, fun j _ => set_lets (link_lets_a h1 h2) j⟩
    simp only [Bridge.Who.free, ha] at this
    rcases this with this | ⟨_, this⟩ <;> cases this
  | succ i =>
    have := hq .relay _ ⟨.relay (show i < n by omega) (.far (w := w.around i) hm ha (hd (by omega))),
      fun j _ => put_lets (lets_refl _ _) (link_lets_a h1 h2) j⟩
    rcases this with this | ⟨_, this⟩ <;> cases this

/-- At rest the own threads of a relay cannot go on. -/
theorem narrow_carry (hq : Hushed c kc kl n w) {i : Nat} (hi : i < n) (aw : (w.around i).awake) :
    (∀ {h b h' a}, w.up i = h → ¬ Carry (kl i) .socket (w.link i).b h (w.link (i + 1)).a b h' a) ∧
    (∀ {h b h' a}, w.down i = h → ¬ Carry .socket (kl i) (w.link (i + 1)).a h (w.link i).b a h' b) := by
  constructor
  · rintro _ b h' a rfl hc
    obtain ⟨⟨e1, e2⟩, e3, e4⟩ := carry_bytes hc
    have := hq .relay _ ⟨.relay hi (.up (w := w.around i) aw hc),
      fun j _ => put_lets (link_lets_b (.inl e1) (.inl e2)) (link_lets_a (.inl e3) (.inl e4)) j⟩
    rcases this with this | ⟨_, this⟩ <;> cases this
  · rintro _ b h' a rfl hc
    obtain ⟨⟨e1, e2⟩, e3, e4⟩ := carry_bytes hc
    have := hq .relay _ ⟨.relay hi (.down (w := w.around i) aw hc),
      fun j _ => put_lets (link_lets_b (.inl e3) (.inl e4)) (link_lets_a (.inl e1) (.inl e2)) j⟩
    rcases this with this | ⟨_, this⟩ <;> cases this

/-! ### At rest with finite buffers means at rest -/

theorem prefix_rest {xs ys : Bytes} (h : xs <+: ys) (hne : xs ≠ ys) : ∃ t, t ≠ [] ∧ xs ++ t = ys := by
  obtain ⟨t, rfl⟩ := h
  exact ⟨t, by rintro rfl; exact hne (by simp), rfl⟩

/-- At rest everything that a right side of a link can still get has arrived. -/
theorem narrow_up (hc : ∀ i ≤ n, 1 ≤ (c i).toRight) {pre : List Message} (h : Chain.Reachable kc kl n w)
    (hp : Spec.Passing pre (w.ends n)) (hq0 : Narrow.Quiet c kc kl n w) :
    ∀ j i, i + j = n → (w.link i).b.gone = false → (w.link i).b.io.arrived = (w.link i).a.io.out := by
  have hq := hushed hq0
  have hk := chain_kept h hp
  have pa : ∀ i < n, Spec.Passing (hop i pre) (keptAround w i) := fun i hi =>
    chain_passing h hp hk (n - i - 1) i (by omega)
  -- the reader thread of such a side, when it does not wait for a hand
  have base : ∀ i ≤ n, (w.link i).b.gone = false → (∀ m, (w.link i).b.io.reader ≠ .sending m) →
      (w.link i).b.io.arrived = (w.link i).a.io.out := by
    intro i hi hg hns
    obtain ⟨hl, lv⟩ := chain_leaving h hp hi
    have li := leaveInv hl lv
    have rd := (leave_reader hl lv li).2
    have got : Message.notification .exit ∈ (w.link i).b.io.delivered → (w.link i).b.io.arrived = (w.link i).a.io.out :=
      fun hx => (exit_received (link_pair hl) lv.okA lv.before lv.sentA hx).2.2.2.1
    cases e : (w.link i).b.io.reader with
    | sending m => exact absurd e (hns m)
    | reading =>
      by_cases hs : ∃ r, Settled (w.link i).b.io r
      · obtain ⟨r, hs⟩ := hs
        exact (narrow_right hq hi (.own hg (.read _ r e hs) (by simp) (by simp) (by simp)) rfl (by simp)
          (by cases r <;> exact .inl rfl) (by cases r <;> exact .inl rfl)).elim
      · have hs : ∀ r, ¬ Settled (w.link i).b.io r := fun r hr => hs ⟨r, hr⟩
        cases hin : (w.link i).b.io.inEnd with
        | some v => exact got (li.inB (by change (w.link i).b.io.inEnd ≠ none; rw [hin]; simp))
        | none =>
          refine Decidable.byContradiction fun hne => ?_
          obtain ⟨t, ht, he⟩ := prefix_rest (pair_inv (link_pair (chain_link h i hi))).2.2.1 hne
          exact narrow_right hq hi (.arrive hg ht (by rw [he]; exact List.prefix_refl _) (.arrive _ t hin)) rfl (by simp)
            (.inl rfl) (.inr ⟨e, hs⟩)
    | _ => exact got (rd (by change (w.link i).b.io.reader.ended = true; rw [e]; rfl)).2
  intro j
  induction j with
  | zero =>
    intro i hi hg
    have : i = n := by omega
    subst this
    refine base i (Nat.le_refl _) hg fun m e => ?_
    cases hr : (w.link i).b.io.rxAlive with
    | false =>
      exact narrow_right hq (Nat.le_refl _) (.own hg (.undeliverable _ m e hr) (by simp) (by simp) (by simp)) rfl (by simp)
        (.inl rfl) (.inl rfl)
    | true =>
      have := hq0 _ _ (narrow_server (.own hg (.deliver _ m e hr) (by simp) (by simp) (by simp)) rfl rfl)
      cases this
  | succ j ih =>
    intro i hi hg
    have hin : i < n := by omega
    refine base i (by omega) hg fun m e => ?_
    have bi := bridgeInv (hk i hin)
    have pi := passInv (hk i hin) (pa i hin)
    have hg' : (w.link (i + 1)).a.gone = false := bi.gone.symm.trans hg
    have aw : (w.around i).awake := ⟨hg, hg'⟩
    obtain ⟨noUp, _⟩ := narrow_carry hq hin aw
    cases hu : w.up i with
    | waiting =>
      have hr : (w.link i).b.io.rxAlive = true := by
        cases hr : (w.link i).b.io.rxAlive with
        | true => rfl
        | false => have := bi.up.2 (.inl hr); change w.up i = _ at this; rw [hu] at this; cases this
      exact noUp hu (.recv (.deliver _ m e hr))
    | ended =>
      have := pi.upEnd hu
      change (w.link i).b.io.reader.ended = true at this
      rw [e] at this; cases this
    | holding m' =>
      have ht : (w.link (i + 1)).a.io.txAlive = true := by
        cases ht : (w.link (i + 1)).a.io.txAlive with
        | true => rfl
        | false => have := bi.up.2 (.inr ht); change w.up i = _ at this; rw [hu] at this; cases this
      cases ew : (w.link (i + 1)).a.io.writer with
      | idle => exact noUp hu (.send (.accept _ m' ew ht))
      | writing r =>
        cases r with
        | nil =>
          exact narrow_left hq (i := i + 1) (by omega) (.own hg' (.written _ ew) (by simp) (by simp) (by simp)) rfl (by simp)
            (.inl rfl) (.inl rfl)
        | cons x r =>
          cases hgb : (w.link (i + 1)).b.gone with
          | true =>
            exact narrow_left hq (i := i + 1) (by omega) (.fails hg' (by simp [Side.closed, hgb]) ew (by simp) (.writeFails _ _ ew))
              rfl (by simp) (.inl rfl) (.inl rfl)
          | false =>
            have := ih (i + 1) (by omega) hgb
            refine narrow_left hq (i := i + 1) (by omega) (.own hg' (.write _ [x] r ew (by simp)) (by simp) (by simp) (by simp)) rfl
              (by simp) (.inr ?_) (.inl rfl)
            have hc1 := hc (i + 1) (by omega)
            simp only [List.length_append, List.length_singleton, this]
            omega
      | _ => exact noUp hu (.unsent (by rw [ew]; rfl))

/-- At rest everything that a left side of a link can still get has arrived. -/
theorem narrow_down (hc : ∀ i ≤ n, 1 ≤ (c i).toLeft) {pre : List Message} (h : Chain.Reachable kc kl n w)
    (hp : Spec.Passing pre (w.ends n)) (hq : Hushed c kc kl n w) :
    ∀ i ≤ n, (w.link i).a.gone = false → (w.link i).a.io.arrived = (w.link i).b.io.out := by
  have hk := chain_kept h hp
  have pa : ∀ i < n, Spec.Passing (hop i pre) (keptAround w i) := fun i hi =>
    chain_passing h hp hk (n - i - 1) i (by omega)
  have base : ∀ i ≤ n, (w.link i).a.gone = false → (∀ m, (w.link i).a.io.reader ≠ .sending m) →
      (w.link i).a.io.arrived = (w.link i).b.io.out := by
    intro i hi hg hns
    obtain ⟨hl, lv⟩ := chain_leaving h hp hi
    have li := leaveInv hl lv
    have rd := (leave_reader hl lv li).1
    have got : (w.link i).a.io.inEnd ≠ none → (w.link i).a.io.arrived = (w.link i).b.io.out := by
      intro hne
      rcases li.inA with h1 | h1
      · exact absurd h1 hne
      · exact h1.2.2
    cases e : (w.link i).a.io.reader with
    | sending m => exact absurd e (hns m)
    | reading =>
      by_cases hs : ∃ r, Settled (w.link i).a.io r
      · obtain ⟨r, hs⟩ := hs
        exact (narrow_left hq hi (.own hg (.read _ r e hs) (by simp) (by simp) (by simp)) rfl (by simp)
          (by cases r <;> exact .inl rfl) (by cases r <;> exact .inl rfl)).elim
      · have hs : ∀ r, ¬ Settled (w.link i).a.io r := fun r hr => hs ⟨r, hr⟩
        cases hin : (w.link i).a.io.inEnd with
        | some v => exact got (by rw [hin]; simp)
        | none =>
          refine Decidable.byContradiction fun hne => ?_
          obtain ⟨t, ht, he⟩ := prefix_rest (pair_inv (link_pair (chain_link h i hi))).2.2.2 hne
          exact narrow_left hq hi (.arrive hg ht (by rw [he]; exact List.prefix_refl _) (.arrive _ t hin)) rfl (by simp)
            (.inl rfl) (.inr ⟨e, hs⟩)
    | _ =>
      have := (rd (by change (w.link i).a.io.reader.ended = true; rw [e]; rfl)).2.1
      change (w.link i).a.io.inEnd = _ at this
      exact got (by rw [this]; simp)
  intro i
  induction i with
  | zero =>
    intro hi hg
    refine base 0 hi hg fun m e => ?_
    exact narrow_left hq hi (.own hg (.deliver _ m e hp.rxA) (by simp) (by simp) (by simp)) rfl
      (fun h => absurd h (Nat.lt_irrefl _)) (.inl rfl) (.inl rfl)
  | succ i ih =>
    intro hi hg
    have hin : i < n := by omega
    refine base (i + 1) hi hg fun m e => ?_
    have bi := bridgeInv (hk i hin)
    have pi := passInv (hk i hin) (pa i hin)
    have hg' : (w.link i).b.gone = false := bi.gone.trans hg
    have aw : (w.around i).awake := ⟨hg', hg⟩
    obtain ⟨_, noDown⟩ := narrow_carry hq hin aw
    cases hu : w.down i with
    | waiting =>
      have hr : (w.link (i + 1)).a.io.rxAlive = true := by
        cases hr : (w.link (i + 1)).a.io.rxAlive with
        | true => rfl
        | false => have := bi.down.2 (.inl hr); change w.down i = _ at this; rw [hu] at this; cases this
      exact noDown hu (.recv (.deliver _ m e hr))
    | ended =>
      have := pi.downEnd hu
      change (w.link (i + 1)).a.io.reader.ended = true at this
      rw [e] at this; cases this
    | holding m' =>
      have ht : (w.link i).b.io.txAlive = true := by
        cases ht : (w.link i).b.io.txAlive with
        | true => rfl
        | false => have := bi.down.2 (.inr ht); change w.down i = _ at this; rw [hu] at this; cases this
      cases ew : (w.link i).b.io.writer with
      | idle => exact noDown hu (.send (.accept _ m' ew ht))
      | writing r =>
        cases r with
        | nil =>
          exact narrow_right hq (i := i) (by omega) (.own hg' (.written _ ew) (by simp) (by simp) (by simp)) rfl (by simp)
            (.inl rfl) (.inl rfl)
        | cons x r =>
          cases hgb : (w.link i).a.gone with
          | true =>
            exact narrow_right hq (i := i) (by omega) (.fails hg' (by simp [Side.closed, hgb]) ew (by simp) (.writeFails _ _ ew))
              rfl (by simp) (.inl rfl) (.inl rfl)
          | false =>
            have := ih (by omega) hgb
            refine narrow_right hq (i := i) (by omega) (.own hg' (.write _ [x] r ew (by simp)) (by simp) (by simp) (by simp)) rfl
              (by simp) (.inr ?_) (.inl rfl)
            have hc1 := hc i (by omega)
            simp only [List.length_append, List.length_singleton, this]
            omega
      | _ => exact noDown hu (.unsent (by rw [ew]; rfl))

/-- At rest no right side of a link is writing. -/
theorem narrow_writes_b (hc : ∀ i ≤ n, 1 ≤ (c i).toLeft) {pre : List Message} (h : Chain.Reachable kc kl n w)
    (hp : Spec.Passing pre (w.ends n)) (hq : Hushed c kc kl n w) {i : Nat} (hi : i ≤ n)
    (hg : (w.link i).b.gone = false) (x : UInt8) (r : Bytes) : (w.link i).b.io.writer ≠ .writing (x :: r) := by
  intro ew
  cases hga : (w.link i).a.gone with
  | true =>
    exact narrow_right hq hi (.fails hg (by simp [Side.closed, hga]) ew (by simp) (.writeFails _ _ ew)) rfl (by simp)
      (.inl rfl) (.inl rfl)
  | false =>
    have := narrow_down hc h hp hq i hi hga
    refine narrow_right hq hi (.own hg (.write _ [x] r ew (by simp)) (by simp) (by simp) (by simp)) rfl
      (by simp) (.inr ?_) (.inl rfl)
    have hc1 := hc i hi
    simp only [List.length_append, List.length_singleton, this]
    omega

/-- At rest no left side of a link is writing. -/
theorem narrow_writes_a (hc : ∀ i ≤ n, 1 ≤ (c i).toRight) {pre : List Message} (h : Chain.Reachable kc kl n w)
    (hp : Spec.Passing pre (w.ends n)) (hq : Narrow.Quiet c kc kl n w) {i : Nat} (hi : i ≤ n)
    (hg : (w.link i).a.gone = false) (x : UInt8) (r : Bytes) : (w.link i).a.io.writer ≠ .writing (x :: r) := by
  intro ew
  cases hga : (w.link i).b.gone with
  | true =>
    exact narrow_left (hushed hq) hi (.fails hg (by simp [Side.closed, hga]) ew (by simp) (.writeFails _ _ ew)) rfl (by simp)
      (.inl rfl) (.inl rfl)
  | false =>
    have := narrow_up hc h hp hq (n - i) i (by omega) hga
    refine narrow_left (hushed hq) hi (.own hg (.write _ [x] r ew (by simp)) (by simp) (by simp) (by simp)) rfl
      (by simp) (.inr ?_) (.inl rfl)
    have hc1 := hc i hi
    simp only [List.length_append, List.length_singleton, this]
    omega

theorem nothing_more {xs bs : Bytes} (h : xs ++ bs <+: xs) : bs = [] := by
  have := h.length_le
  rw [List.length_append] at this
  exact List.length_eq_zero_iff.1 (by omega)

/-- C143: a client and a server that talk through `n` relays, with buffers of whatever size (at least one byte) on each link:
when the threads and the network can do nothing any more, it is not for want of room in the buffers, nor because some reader
thread does not take what has come - with any other buffers, or without limit, nothing could happen either. -/
theorem C143_rest (hc : ∀ i ≤ n, 1 ≤ (c i).toRight ∧ 1 ≤ (c i).toLeft) {pre : List Message} (h : Chain.Reachable kc kl n w)
    (hp : Spec.Passing pre (w.ends n)) (hq : Narrow.Quiet c kc kl n w) : Chain.Quiet kc kl n w := by
  have hcr : ∀ i ≤ n, 1 ≤ (c i).toRight := fun i hi => (hc i hi).1
  have hcl : ∀ i ≤ n, 1 ≤ (c i).toLeft := fun i hi => (hc i hi).2
  have left : ∀ {i ev a}, i ≤ n → Move (Chain.near kc i) (kl i) (w.link i).a (w.link i).b ev a →
      Lets (c i) (w.link i) { w.link i with a } := by
    intro i ev a hi hm
    obtain ⟨hg, h1, h2⟩ := move_flow hm
    refine link_lets_a (.inl ?_) (.inl ?_)
    · rcases h1 with h1 | ⟨x, r, h1⟩
      · exact h1
      · exact absurd h1 (narrow_writes_a hcr h hp hq hi hg x r)
    · rcases h2 with h2 | ⟨bs, h2, h3⟩
      · exact h2
      · rw [← narrow_down hcl h hp (hushed hq) i hi hg] at h3
        exact absurd (nothing_more h3) h2
  have right : ∀ {i ev b}, i ≤ n → Move (kl i) (Chain.near kc i) (w.link i).b (w.link i).a ev b →
      Lets (c i) (w.link i) { w.link i with b } := by
    intro i ev b hi hm
    obtain ⟨hg, h1, h2⟩ := move_flow hm
    refine link_lets_b (.inl ?_) (.inl ?_)
    · rcases h1 with h1 | ⟨x, r, h1⟩
      · exact h1
      · exact absurd h1 (narrow_writes_b hcl h hp (hushed hq) hi hg x r)
    · rcases h2 with h2 | ⟨bs, h2, h3⟩
      · exact h2
      · rw [← narrow_up hcr h hp hq (n - i) i (by omega) hg] at h3
        exact absurd (nothing_more h3) h2
  intro x w' hs
  refine hq x w' ⟨hs, ?_⟩
  cases hs with
  | client hm => exact fun i _ => set_lets (left (Nat.zero_le _) hm) i
  | server hm => exact fun i _ => set_lets (right (Nat.le_refl _) hm) i
  | @relay j b hj hm =>
    obtain ⟨⟨e1, e2⟩, h1, h2⟩ := relay_sides hm
    refine fun i _ => put_lets ?_ ?_ i
    · rw [link_b e1]
      rcases h1 with h1 | ⟨ev, h1⟩
      · rw [h1]; exact lets_refl _ _
      · exact right (i := j) (by omega) h1
    · rw [link_a e2]
      rcases h2 with h2 | ⟨ev, h2⟩
      · rw [h2]; exact lets_refl _ _
      · exact left (i := j + 1) (by omega) h2

/-- At rest a writer thread whose sender has not been dropped waits for a message. -/
theorem narrow_idle (hc : ∀ i ≤ n, 1 ≤ (c i).toRight ∧ 1 ≤ (c i).toLeft) {pre : List Message} (h : Chain.Reachable kc kl n w)
    (hp : Spec.Passing pre (w.ends n)) (hq : Narrow.Quiet c kc kl n w) :
    ((w.link 0).a.io.txAlive = true → (w.link 0).a.io.writer = .idle) ∧
    ((w.link n).b.gone = false → (w.link n).b.io.txAlive = true → (w.link n).b.io.writer = .idle) := by
  constructor
  · intro ht
    obtain ⟨hl, lv⟩ := chain_leaving h hp (Nat.zero_le n)
    have li := leaveInv hl lv
    have hg := hp.gone.1
    cases ew : (w.link 0).a.io.writer with
    | idle => rfl
    | writing r =>
      exfalso
      cases r with
      | nil =>
        exact narrow_left (hushed hq) (Nat.zero_le n) (.own hg (.written _ ew) (by simp) (by simp) (by simp)) rfl (by simp) (.inl rfl) (.inl rfl)
      | cons x r => exact narrow_writes_a (fun i hi => (hc i hi).1) h hp hq (Nat.zero_le n) hg x r ew
    | failed => exact absurd ew li.wA.1
    | panicked => exact absurd ew li.wA.2
    | done =>
      have := (C54_drained (pair_inv (link_pair (chain_link h 0 (Nat.zero_le n)))).1 ew).1
      simp only at this
      rw [ht] at this; cases this
  · intro hg ht
    obtain ⟨hl, lv⟩ := chain_leaving h hp (Nat.le_refl n)
    have li := leaveInv hl lv
    cases ew : (w.link n).b.io.writer with
    | idle => rfl
    | writing r =>
      exfalso
      cases r with
      | nil =>
        exact narrow_right (hushed hq) (Nat.le_refl n) (.own hg (.written _ ew) (by simp) (by simp) (by simp)) rfl (by simp) (.inl rfl) (.inl rfl)
      | cons x r => exact narrow_writes_b (fun i hi => (hc i hi).2) h hp (hushed hq) (Nat.le_refl n) hg x r ew
    | failed => exact absurd ew li.wB.1
    | panicked => exact absurd ew li.wB.2
    | done =>
      have := (C54_drained (pair_inv (link_pair (chain_link h n (Nat.le_refl n)))).2.1 ew).1
      simp only at this
      rw [ht] at this; cases this

/-- C143: so, when the threads and the network can do nothing any more, the client and the server can send the next message,
whatever it is, as long as they have their senders: nobody waits for ever in `send`. -/
theorem C143_sends (hc : ∀ i ≤ n, 1 ≤ (c i).toRight ∧ 1 ≤ (c i).toLeft) {pre : List Message} (h : Chain.Reachable kc kl n w)
    (hp : Spec.Passing pre (w.ends n)) (hq : Narrow.Quiet c kc kl n w) (m : Message) :
    ((w.link 0).a.io.txAlive = true → ∃ w', Narrow.Next c kc kl n w (.client (.act (.accept m))) w') ∧
    ((w.link n).b.gone = false → (w.link n).b.io.txAlive = true →
      ∃ w', Narrow.Next c kc kl n w (.server (.act (.accept m))) w') := by
  obtain ⟨h1, h2⟩ := narrow_idle hc h hp hq
  constructor
  · intro ht
    exact ⟨_, narrow_client (.own hp.gone.1 (.accept _ m (h1 ht) ht) (by simp) (by simp) (by simp)) rfl rfl⟩
  · intro hg ht
    exact ⟨_, narrow_server (.own hg (.accept _ m (h2 hg ht) ht) (by simp) (by simp) (by simp)) rfl rfl⟩

end

/-- C143: so, too, at any such moment before exit has been sent, each of the two has received everything that the other has
sent, however small the buffers are. -/
theorem C143_heard (hc : ∀ i ≤ n, 1 ≤ (c i).toRight ∧ 1 ≤ (c i).toLeft) {pre : List Message} {w : Chain.World}
    (h : Narrow.Reachable c kc kl n w) (hp : Spec.Passing pre (w.ends n))
    (hx : Message.notification .exit ∉ (w.link 0).a.io.accepted) (hq : Narrow.Quiet c kc kl n w) :
    (w.link 0).a.io.delivered = (w.link n).b.io.accepted.map Spec.heard ∧
    (w.link n).b.io.delivered = (w.link 0).a.io.accepted.map Spec.heard :=
  have r := C142_rest (narrow_chain h) hp hx (C143_rest hc (narrow_chain h) hp hq)
  ⟨r.1, r.2.1⟩

/-! ### Coming to rest -/

/-- C143: with finite buffers, too, nothing can go on for ever while the client's and the server's program only receive, and
there is a run to a state where nothing can happen any more. -/
theorem C143_settles {w : Chain.World} (h : Narrow.Reachable c kc kl n w) :
    (¬ ∃ f : Nat → Chain.World, f 0 = w ∧ ∀ k, ∃ x, Narrow.Next c kc kl n (f k) x (f (k + 1)) ∧ x.free = false) ∧
    ∃ xs w', Narrow.Steps c kc kl n w xs w' ∧ (∀ x ∈ xs, x.free = false) ∧ Narrow.Quiet c kc kl n w' := by
  constructor
  · rintro ⟨f, h0, hf⟩
    refine (C142_settles (narrow_chain h)).1 ⟨f, h0, fun k => ?_⟩
    obtain ⟨x, h1, h2⟩ := hf k
    exact ⟨x, h1.step, h2⟩
  · suffices ∀ g w' xs, hopWork n w' = g → Narrow.Steps c kc kl n w xs w' → (∀ x ∈ xs, x.free = false) →
        ∃ xs w', Narrow.Steps c kc kl n w xs w' ∧ (∀ x ∈ xs, x.free = false) ∧ Narrow.Quiet c kc kl n w' from
      this _ w [] rfl (.nil w) (by simp)
    intro g
    induction g using (sooner_wf n).induction with
    | _ g ih =>
      rintro w' xs rfl hr hxs
      by_cases hq : Narrow.Quiet c kc kl n w'
      · exact ⟨xs, w', hr, hxs, hq⟩
      · unfold Narrow.Quiet at hq
        simp only [Classical.not_forall, Bool.not_eq_true] at hq
        obtain ⟨x, w'', hs, hf⟩ := hq
        refine ih _ (chain_work (narrow_chain (narrow_steps hr h)) hs.step hf) w'' (xs ++ [x]) rfl (.snoc hr hs) ?_
        intro y hy
        rcases List.mem_append.1 hy with hy | hy
        · exact hxs y hy
        · rw [List.mem_singleton.1 hy]; exact hf

/-- C143: from the moment on when client and server (on a socket) have sent everything and dropped their senders, the
two need only go on receiving: there is a maximal run, and every maximal one ends with everything delivered, all joined and all
relays gone, however small the buffers are. -/
theorem C143_leave (hc : ∀ i ≤ n, 1 ≤ (c i).toRight ∧ 1 ≤ (c i).toLeft) {pre : List Message} {w : Chain.World}
    (h : Narrow.Reachable c kc kl n w) (hk : kl n = .socket) (hp : Spec.Passing pre (w.ends n))
    (hx : (w.link 0).a.io.accepted = pre ++ [.notification .exit])
    (ht : (w.link 0).a.io.txAlive = false ∧ (w.link n).b.io.txAlive = false) :
    (∃ xs w', Narrow.Steps c kc kl n w xs w' ∧ (∀ x ∈ xs, x.free = false) ∧ Narrow.Quiet c kc kl n w') ∧
    ∀ xs w', Narrow.Steps c kc kl n w xs w' → (∀ x ∈ xs, x.free = false) → Narrow.Quiet c kc kl n w' →
      (join kc (w'.link 0).a.io = .ok ∧ (w'.link 0).a.io.delivered = (w.link n).b.io.accepted.map Spec.heard) ∧
      (join .socket (w'.link n).b.io = .ok ∧ (w'.link n).b.io.delivered = (w.link 0).a.io.accepted.map Spec.heard) ∧
      ∀ i < n, (w'.link i).b.gone = true := by
  refine ⟨(C143_settles h).2, fun xs w' hr hxs hq => ?_⟩
  have hr' := narrow_runs hr hxs
  exact (C142_leave (narrow_chain h) hk hp hx ht).2 w' hr'
    (C143_rest hc (chain_runs hr' (narrow_chain h)) (chain_runs_passing hr' hp) hq)

/-! ### How much there is on the way -/

/-- Each link of the chain is two connected processes with finite buffers between them. -/
theorem narrow_link {w : Chain.World} (h : Narrow.Reachable c kc kl n w) :
    ∀ i ≤ n, Flow.Reachable (c i) (Chain.near kc i) (kl i) (w.link i) := by
  induction h with
  | start => exact fun _ _ => .start
  | @step w x w' _ hs ih =>
    intro i hi
    obtain ⟨hs, hl⟩ := hs
    have hl := hl i hi
    suffices w'.link i = w.link i ∨ ∃ ev, LinkStep (Chain.near kc i) (kl i) (w.link i) ev (w'.link i) by
      rcases this with h1 | ⟨ev, h1⟩
      · rw [h1]; exact ih i hi
      · exact .step (ih i hi) h1 hl
    clear hl ih
    cases hs with
    | client hm =>
      by_cases e : i = 0
      · subst e; rw [set_self]; exact .inr ⟨_, .left hm⟩
      · rw [set_other _ _ e]; exact .inl rfl
    | server hm =>
      by_cases e : i = n
      · subst e; rw [set_self]; exact .inr ⟨_, .right hm⟩
      · rw [set_other _ _ e]; exact .inl rfl
    | @relay j b hj hm =>
      obtain ⟨⟨e1, e2⟩, h1, h2⟩ := relay_sides hm
      by_cases e : i = j
      · subst e
        rw [put_self, link_b e1]
        rcases h1 with h1 | ⟨ev, h1⟩
        · rw [h1]; exact .inl rfl
        · exact .inr ⟨_, .right h1⟩
      · by_cases e' : i = j + 1
        · subst e'
          rw [put_next, link_a e2]
          rcases h2 with h2 | ⟨ev, h2⟩
          · rw [h2]; exact .inl rfl
          · exact .inr ⟨_, .left h2⟩
        · rw [put_other _ _ e e']; exact .inl rfl

omit [LawfulExt] [FloatText] in
/-- How many messages there may be on the way over `i + 1` links: on each of them two, and as many more as have twice the
bytes of its buffer, none having less than 21; and one with each relay between them. Specification about
bsp-server/src/lib.rs:37-40 and message.rs:42-49. -/
def Spec.underway (cap : Nat → Nat) : Nat → Nat
  | 0 => 2 * cap 0 / 21 + 2
  | i + 1 => Spec.underway cap i + 1 + (2 * cap (i + 1) / 21 + 2)

/-- C143: what the client has sent is not further ahead of what the server's program has received than the buffers of the
links and the threads of the relays have room for, and the same in the other direction: a server that does not receive
stops, through all the relays, the client. -/
theorem C143_ahead {pre : List Message} {w : Chain.World} (h : Narrow.Reachable c kc kl n w)
    (hp : Spec.Passing pre (w.ends n)) :
    (w.link 0).a.io.accepted.length ≤ (w.link n).b.io.delivered.length + Spec.underway (fun i => (c i).toRight) n ∧
    (w.link n).b.io.accepted.length ≤ (w.link 0).a.io.delivered.length + Spec.underway (fun i => (c i).toLeft) n := by
  have hr := narrow_chain h
  have hk := chain_kept hr hp
  have pa : ∀ i < n, Spec.Passing (hop i pre) (keptAround w i) := fun i hi =>
    chain_passing hr hp hk (n - i - 1) i (by omega)
  have one : ∀ i ≤ n, (w.link i).a.io.accepted.length ≤ (w.link i).b.io.delivered.length + 2 * (c i).toRight / 21 + 2 ∧
      (w.link i).b.io.accepted.length ≤ (w.link i).a.io.delivered.length + 2 * (c i).toLeft / 21 + 2 := by
    intro i hi
    have := C122_ahead (narrow_link h i hi) (chain_sent hr hp.okA i hi).2 (chain_back hr hp.okB (n - i) i (by omega)).2
    exact ⟨this.1.2, this.2.2⟩
  have hand : ∀ i < n, (w.link i).b.io.delivered.length ≤ (w.link (i + 1)).a.io.accepted.length + 1 ∧
      (w.link (i + 1)).a.io.delivered.length ≤ (w.link i).b.io.accepted.length + 1 := by
    intro i hi
    have pi := passInv (hk i hi) (pa i hi)
    have h1 := congrArg List.length pi.up
    have h2 := congrArg List.length pi.down
    have held : ∀ x : Hand, x.held.length ≤ 1 := by intro x; cases x <;> simp [Hand.held]
    have h3 := held (w.up i)
    have h4 := held (w.down i)
    simp only [keptAround, keptLink, List.length_append] at h1 h2
    omega
  have key : ∀ i ≤ n,
      (w.link 0).a.io.accepted.length ≤ (w.link i).b.io.delivered.length + Spec.underway (fun i => (c i).toRight) i ∧
      (w.link i).b.io.accepted.length ≤ (w.link 0).a.io.delivered.length + Spec.underway (fun i => (c i).toLeft) i := by
    intro i
    induction i with
    | zero => intro hi; have := one 0 hi; simp only [Spec.underway]; omega
    | succ i ih =>
      intro hi
      have h1 := ih (by omega)
      have h2 := one (i + 1) hi
      have h3 := hand i (by omega)
      simp only [Spec.underway]
      omega
  exact key n (Nat.le_refl _)

/-! ### Without any room -/

/-- C143: but without any room on one of the links nothing ever gets to the server. -/
theorem C143_none {w : Chain.World} (h : Narrow.Reachable c kc kl n w) {i : Nat} (hi : i ≤ n) (hc : (c i).toRight = 0) :
    (w.link n).b.io.delivered = [] := by
  have hr := narrow_chain h
  have out : ∀ {d : Caps} {ka kb : Kind} {l : Link}, d.toRight = 0 → Flow.Reachable d ka kb l → l.a.io.out = [] := by
    intro d ka kb l hd hl
    induction hl with
    | start => rfl
    | @step l ev l' hr hs hl ih =>
      rcases hl.right with h1 | h1
      · rw [h1]; exact ih
      · have h2 := (pair_inv (link_pair (flow_reachable hr))).2.2.1.length_le
        simp only [ih, List.length_nil] at h2
        exact List.length_eq_zero_iff.1 (by omega)
  have first : (w.link i).b.io.delivered = [] := by
    obtain ⟨_, h2, h3, _⟩ := pair_inv (link_pair (chain_link hr i hi))
    simp only [out hc (narrow_link h i hi)] at h3
    have e : (w.link i).b.io.arrived = [] := List.prefix_nil.1 h3
    have := C51_prefix h2 [] false
    rw [e] at this
    rw [show (readAll (⟨[] ++ [], false⟩ : Flat)).1 = ([] : List Message) from
      congrArg Prod.fst (C13_heard_stream [] (by simp))] at this
    exact List.prefix_nil.1 this
  have next : ∀ j, i + j ≤ n → (w.link (i + j)).b.io.delivered = [] := by
    intro j
    induction j with
    | zero => exact fun _ => first
    | succ j ih =>
      intro hj
      have h1 := (bridgeInv (chain_around hr (i + j) (by omega))).up.1.1
      simp only [Chain.World.around, ih (by omega)] at h1
      have h2 : (w.link (i + j + 1)).a.io.accepted = [] := (List.append_eq_nil_iff.1 (List.prefix_nil.1 h1)).1
      have h3 := C56_heard (link_pair (chain_link hr (i + j + 1) (by omega))) (by simp [h2])
      simp only [h2, List.map_nil] at h3
      exact List.prefix_nil.1 h3
  have := next (n - i) (by omega)
  rwa [show i + (n - i) = n by omega] at this

/-! ### A whole conversation -/

theorem set_first (w : Chain.World) (a : Side) : ((w.set 0 { w.link 0 with a }).link n).b = (w.link n).b := by
  by_cases e : n = 0
  · subst e; rw [set_self]
  · rw [set_other _ _ e]

theorem set_last (w : Chain.World) (b : Side) : ((w.set n { w.link n with b }).link 0).a = (w.link 0).a := by
  by_cases e : 0 = n
  · subst e; rw [set_self]
  · rw [set_other _ _ e]

/-- Where the two have sent these messages and have their handles. Proof helper for bsp-server/src/lib.rs:37-40. -/
structure Midway (c : Nat → Caps) (kc : Kind) (kl : Nat → Kind) (n : Nat) (ms ns : List Message) (w : Chain.World) : Prop where
  reach : Narrow.Reachable c kc kl n w
  client : (w.link 0).a.gone = false ∧ (w.link 0).a.io.accepted = ms ∧ (w.link 0).a.io.rxAlive = true ∧
    (w.link 0).a.io.txAlive = true
  server : (w.link n).b.gone = false ∧ (w.link n).b.io.accepted = ns ∧ (w.link n).b.io.rxAlive = true ∧
    (w.link n).b.io.txAlive = true

theorem midway_passing {pre ms ns : List Message} {w : Chain.World} (h : Midway c kc kl n ms ns w)
    (hm : ∀ m ∈ ms, Spec.Sayable m) (hn : ∀ m ∈ ns, Spec.Sayable m) (hp : Message.notification .exit ∉ pre)
    (hx : Message.notification .exit ∉ ns) (hs : ms <+: pre ++ [.notification .exit]) : Spec.Passing pre (w.ends n) := by
  obtain ⟨_, ⟨a1, a2, a3, _⟩, b1, b2, b3, _⟩ := h
  refine ⟨⟨a1, fun e => ?_⟩, fun m h => hm m (a2 ▸ h), fun m h => hn m (b2 ▸ h), hp, a2 ▸ hs, fun h => hx (b2 ▸ h), a3, .inl b3⟩
  change (w.link n).b.gone = true at e
  rw [b1] at e; cases e

theorem midway_rest {ms ns : List Message} {w : Chain.World} (h : Midway c kc kl n ms ns w) :
    ∃ w', Midway c kc kl n ms ns w' ∧ Narrow.Quiet c kc kl n w' := by
  obtain ⟨xs, w', hr, hxs, hq⟩ := (C143_settles h.reach).2
  obtain ⟨⟨a1, a2, a3, a4⟩, ⟨b1, b2, b3, b4⟩, _⟩ := chain_kept_ends (narrow_runs hr hxs)
  obtain ⟨h0, ⟨c1, c2, c3, c4⟩, d1, d2, d3, d4⟩ := h
  exact ⟨w', ⟨narrow_steps hr h0, ⟨a1.trans c1, a2.trans c2, a3.trans c3, a4.trans c4⟩,
    b1.trans d1, b2.trans d2, b3.trans d3, b4.trans d4⟩, hq⟩

theorem midway_client (hc : ∀ i ≤ n, 1 ≤ (c i).toRight ∧ 1 ≤ (c i).toLeft) {pre ms ns : List Message} {w : Chain.World}
    (h : Midway c kc kl n ms ns w)
    (hm : ∀ m ∈ ms, Spec.Sayable m) (hn : ∀ m ∈ ns, Spec.Sayable m) (hp : Message.notification .exit ∉ pre)
    (hx : Message.notification .exit ∉ ns) (hs : ms <+: pre ++ [.notification .exit]) (m : Message) :
    ∃ w', Midway c kc kl n (ms ++ [m]) ns w' := by
  obtain ⟨w', h', hq⟩ := midway_rest h
  have hi := (narrow_idle hc (narrow_chain h'.reach) (midway_passing h' hm hn hp hx hs) hq).1 h'.client.2.2.2
  have hst := Step.accept (k := kc) (w'.link 0).a.io m hi h'.client.2.2.2
  refine ⟨_, .step h'.reach (narrow_client (.own h'.client.1 hst (by simp) (by simp) (by simp)) rfl rfl), ?_, ?_⟩
  · rw [set_self]
    obtain ⟨c1, c2, c3, c4⟩ := h'.client
    exact ⟨c1, by simp only [c2], c3, c4⟩
  · rw [set_first]; exact h'.server

theorem midway_server (hc : ∀ i ≤ n, 1 ≤ (c i).toRight ∧ 1 ≤ (c i).toLeft) {pre ms ns : List Message} {w : Chain.World}
    (h : Midway c kc kl n ms ns w)
    (hm : ∀ m ∈ ms, Spec.Sayable m) (hn : ∀ m ∈ ns, Spec.Sayable m) (hp : Message.notification .exit ∉ pre)
    (hx : Message.notification .exit ∉ ns) (hs : ms <+: pre ++ [.notification .exit]) (m : Message) :
    ∃ w', Midway c kc kl n ms (ns ++ [m]) w' := by
  obtain ⟨w', h', hq⟩ := midway_rest h
  have hi := (narrow_idle hc (narrow_chain h'.reach) (midway_passing h' hm hn hp hx hs) hq).2 h'.server.1 h'.server.2.2.2
  have hst := Step.accept (k := kl n) (w'.link n).b.io m hi h'.server.2.2.2
  refine ⟨_, .step h'.reach (narrow_server (.own h'.server.1 hst (by simp) (by simp) (by simp)) rfl rfl), ?_, ?_⟩
  · rw [set_last]; exact h'.client
  · rw [set_self]
    obtain ⟨c1, c2, c3, c4⟩ := h'.server
    exact ⟨c1, by simp only [c2], c3, c4⟩

/-- Both have sent all they had to send. -/
theorem midway_all (hc : ∀ i ≤ n, 1 ≤ (c i).toRight ∧ 1 ≤ (c i).toLeft) {pre : List Message}
    (hp : Message.notification .exit ∉ pre) (ok : ∀ m ∈ pre, Spec.Sayable m) :
    ∀ {ns : List Message}, (∀ m ∈ ns, Spec.Sayable m) → Message.notification .exit ∉ ns →
    ∀ {ms : List Message}, ms <+: pre ++ [.notification .exit] → ∃ w, Midway c kc kl n ms ns w := by
  have okx : ∀ {ms : List Message}, ms <+: pre ++ [.notification .exit] → ∀ m ∈ ms, Spec.Sayable m := by
    intro ms h m hm
    rcases List.mem_append.1 (h.subset hm) with h | h
    · exact ok m h
    · rw [List.mem_singleton.1 h]; exact exit_sayable
  have server : ∀ k, ∀ ns : List Message, ns.length = k → (∀ m ∈ ns, Spec.Sayable m) → Message.notification .exit ∉ ns →
      ∃ w, Midway c kc kl n [] ns w := by
    intro k
    induction k with
    | zero =>
      intro ns e _ _
      rw [List.length_eq_zero_iff.1 e]
      exact ⟨{}, .start, ⟨rfl, rfl, rfl, rfl⟩, rfl, rfl, rfl, rfl⟩
    | succ k ih =>
      intro ns e hn hx
      have hne : ns ≠ [] := by rintro rfl; cases e
      have e1 := List.dropLast_concat_getLast hne
      have sub : ∀ m ∈ ns.dropLast, m ∈ ns := fun m hm => List.dropLast_subset _ hm
      obtain ⟨w, hw⟩ := ih ns.dropLast (by simp [e]) (fun m hm => hn m (sub m hm)) (fun hm => hx (sub _ hm))
      have := midway_server hc hw (by simp) (fun m hm => hn m (sub m hm)) hp (fun hm => hx (sub _ hm)) List.nil_prefix
        (ns.getLast hne)
      rwa [e1] at this
  intro ns hn hx
  have client : ∀ k, ∀ ms : List Message, ms.length = k → ms <+: pre ++ [.notification .exit] →
      ∃ w, Midway c kc kl n ms ns w := by
    intro k
    induction k with
    | zero =>
      intro ms e _
      rw [List.length_eq_zero_iff.1 e]
      exact server _ ns rfl hn hx
    | succ k ih =>
      intro ms e hs
      have hne : ms ≠ [] := by rintro rfl; cases e
      have e1 := List.dropLast_concat_getLast hne
      have hs' : ms.dropLast <+: pre ++ [.notification .exit] := (List.dropLast_prefix _).trans hs
      obtain ⟨w, hw⟩ := ih ms.dropLast (by simp [e]) hs'
      have := midway_client hc hw (okx hs') hn hp hx hs' (ms.getLast hne)
      rwa [e1] at this
  intro ms hs
  exact client _ ms rfl hs

/-- C143: whatever the client and the server (on a socket) have to say to each other, however long the chain and however
small the buffers are, there is a run at whose end they have said and heard all of it, all have joined, and all relays
have exited. -/
theorem C143_talk (hc : ∀ i ≤ n, 1 ≤ (c i).toRight ∧ 1 ≤ (c i).toLeft) (hk : kl n = .socket) {pre ns : List Message}
    (hp : Message.notification .exit ∉ pre) (ok : ∀ m ∈ pre, Spec.Sayable m) (hn : ∀ m ∈ ns, Spec.Sayable m)
    (hx : Message.notification .exit ∉ ns) :
    ∃ w, Narrow.Reachable c kc kl n w ∧
      (w.link 0).a.io.accepted = pre ++ [.notification .exit] ∧ (w.link n).b.io.accepted = ns ∧
      (join kc (w.link 0).a.io = .ok ∧ (w.link 0).a.io.delivered = ns.map Spec.heard) ∧
      (join .socket (w.link n).b.io = .ok ∧
        (w.link n).b.io.delivered = pre.map Spec.heard ++ [.notification .exit]) ∧
      ∀ i < n, (w.link i).b.gone = true := by
  have okx : ∀ m ∈ pre ++ [.notification .exit], Spec.Sayable m := by
    intro m hm
    rcases List.mem_append.1 hm with h | h
    · exact ok m h
    · rw [List.mem_singleton.1 h]; exact exit_sayable
  obtain ⟨w, hw⟩ := midway_all (kc := kc) (kl := kl) hc hp ok hn hx (List.prefix_refl (pre ++ [.notification .exit]))
  -- they drop their senders
  obtain ⟨w1, r1, ⟨a1, a2, a3, a4⟩, b1, b2, b3, b4⟩ : ∃ w', Narrow.Reachable c kc kl n w' ∧
      ((w'.link 0).a.gone = false ∧ (w'.link 0).a.io.accepted = pre ++ [.notification .exit] ∧
        (w'.link 0).a.io.rxAlive = true ∧ (w'.link 0).a.io.txAlive = false) ∧
      (w'.link n).b.gone = false ∧ (w'.link n).b.io.accepted = ns ∧ (w'.link n).b.io.rxAlive = true ∧
        (w'.link n).b.io.txAlive = true := by
    refine ⟨_, .step hw.reach (narrow_client (.own hw.client.1 (.dropTx _) (by simp) (by simp) (by simp)) rfl rfl), ?_, ?_⟩
    · rw [set_self]
      obtain ⟨c1, c2, c3, c4⟩ := hw.client
      exact ⟨c1, c2, c3, rfl⟩
    · rw [set_first]; exact hw.server
  obtain ⟨w2, r2, ⟨c1, c2, c3, c4⟩, d1, d2, d3, d4⟩ : ∃ w', Narrow.Reachable c kc kl n w' ∧
      ((w'.link 0).a.gone = false ∧ (w'.link 0).a.io.accepted = pre ++ [.notification .exit] ∧
        (w'.link 0).a.io.rxAlive = true ∧ (w'.link 0).a.io.txAlive = false) ∧
      (w'.link n).b.gone = false ∧ (w'.link n).b.io.accepted = ns ∧ (w'.link n).b.io.rxAlive = true ∧
        (w'.link n).b.io.txAlive = false := by
    refine ⟨_, .step r1 (narrow_server (.own b1 (.dropTx _) (by simp) (by simp) (by simp)) rfl rfl), ?_, ?_⟩
    · rw [set_last]; exact ⟨a1, a2, a3, a4⟩
    · rw [set_self]; exact ⟨b1, b2, b3, rfl⟩
  have hpass : Spec.Passing pre (w2.ends n) := by
    refine ⟨⟨c1, fun e => ?_⟩, fun m h => okx m (c2 ▸ h), fun m h => hn m (d2 ▸ h), hp, c2 ▸ List.prefix_refl _,
      fun h => hx (d2 ▸ h), c3, .inl d3⟩
    change (w2.link n).b.gone = true at e
    rw [d1] at e; cases e
  obtain ⟨⟨xs, w', hr, hxs, hq⟩, hl⟩ := C143_leave hc r2 hk hpass c2 ⟨c4, d4⟩
  obtain ⟨h1, h2, h3⟩ := hl xs w' hr hxs hq
  obtain ⟨⟨_, e1, _⟩, ⟨_, e2, _⟩, _⟩ := chain_kept_ends (narrow_runs hr hxs)
  refine ⟨w', narrow_steps hr r2, e1.trans c2, e2.trans d2, ⟨h1.1, d2 ▸ h1.2⟩, ⟨h2.1, ?_⟩, h3⟩
  rw [h2.2, c2, List.map_append]
  rfl

end

section
attribute [local instance] Ext.sample FloatText.sample

/-- Beside C143_rest, C143_heard, C143_sends, C143_settles, C143_ahead: buffers of one byte, and as many relays as you like; the two have
sent something and the chain has come to rest. -/
example (kc : Kind) (n : Nat) : ∃ w, Narrow.Reachable (fun _ => ⟨1, 1⟩) kc (fun _ => .socket) n w ∧
    (w.link 0).a.io.accepted = [.request (.shutdown (.i32 4))] ∧ (w.link n).b.io.accepted = [sampleOut] ∧
    Narrow.Quiet (fun _ => ⟨1, 1⟩) kc (fun _ => .socket) n w ∧ Chain.Quiet kc (fun _ => .socket) n w ∧
    (∃ w', Narrow.Next (fun _ => ⟨1, 1⟩) kc (fun _ => .socket) n w (.client (.act (.accept (.notification .exit)))) w') ∧
    1 ≤ (w.link n).b.io.delivered.length + Spec.underway (fun _ => 1) n ∧
    (w.link n).b.io.delivered = [.response ⟨.i32 4, none, none⟩] ∧
    (¬ ∃ f : Nat → Chain.World, f 0 = w ∧ ∀ k, ∃ x, Narrow.Next (fun _ => ⟨1, 1⟩) kc (fun _ => .socket) n (f k) x (f (k + 1)) ∧
      x.free = false) := by
  have hp := sampleRelay_passing
  have hc : ∀ i ≤ n, 1 ≤ ((fun _ => ⟨1, 1⟩ : Nat → Caps) i).toRight ∧ 1 ≤ ((fun _ => ⟨1, 1⟩ : Nat → Caps) i).toLeft :=
    fun _ _ => ⟨Nat.le_refl _, Nat.le_refl _⟩
  have okA : ∀ m ∈ [Message.request (.shutdown (.i32 4))], Spec.Sayable m := fun m hm => hp.okA m (List.mem_append_left _ hm)
  have okB : ∀ m ∈ [sampleOut], Spec.Sayable m := hp.okB
  have hs : [Message.request (.shutdown (.i32 4))] <+: [.request (.shutdown (.i32 4))] ++ [.notification .exit] :=
    List.prefix_append _ _
  obtain ⟨w0, h0⟩ := midway_all (kc := kc) (kl := fun _ => .socket) hc hp.before okA okB hp.sentB hs
  obtain ⟨w, h, hq⟩ := midway_rest h0
  have hpa := midway_passing h okA okB hp.before hp.sentB hs
  have hr := narrow_chain h.reach
  refine ⟨w, h.reach, h.client.2.1, h.server.2.1, hq, C143_rest hc hr hpa hq, (C143_sends hc hr hpa hq _).1 h.client.2.2.2, ?_,
    ?_, (C143_settles h.reach).1⟩
  · have := (C143_ahead h.reach hpa).1
    rw [h.client.2.1] at this
    exact this
  · have := (C143_heard hc h.reach hpa (by rw [h.client.2.1]; exact hp.before) hq).2
    rw [h.client.2.1] at this
    exact this

/-- Beside C143_talk and C143_leave. -/
example (kc : Kind) (n : Nat) : ∃ w, Narrow.Reachable (fun _ => ⟨1, 1⟩) kc (fun _ => .socket) n w ∧
    (w.link 0).a.io.delivered = [Spec.heard sampleOut] ∧
    (w.link n).b.io.delivered = [.response ⟨.i32 4, none, none⟩, .notification .exit] ∧
    ∀ i < n, (w.link i).b.gone = true := by
  have hp := sampleRelay_passing
  obtain ⟨w, h1, _, _, h2, h3, h4⟩ := C143_talk (c := fun _ => ⟨1, 1⟩) (kc := kc) (kl := fun _ => .socket) (n := n)
    (pre := [.request (.shutdown (.i32 4))]) (ns := [sampleOut]) (fun _ _ => ⟨Nat.le_refl _, Nat.le_refl _⟩) rfl hp.before
    (fun m hm => hp.okA m (List.mem_append_left _ hm)) hp.okB hp.sentB
  exact ⟨w, h1, h2.2, h3.2, h4⟩

/-- Beside C143_none: the client may send all the same. -/
example (kc : Kind) (n : Nat) : ∃ w, Narrow.Reachable (fun _ => ⟨0, 5⟩) kc (fun _ => .socket) n w ∧
    (w.link 0).a.io.accepted = [.notification .exit] ∧ (w.link n).b.io.delivered = [] := by
  have h : Narrow.Reachable (fun _ => ⟨0, 5⟩) kc (fun _ => .socket) n _ :=
    .step .start (narrow_client (.own rfl (.accept _ (.notification .exit) rfl rfl) (by simp) (by simp) (by simp)) rfl rfl)
  exact ⟨_, h, by rw [set_self]; rfl, C143_none h (Nat.zero_le _) rfl⟩

end
end Bsp
