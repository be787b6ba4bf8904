/-
C146: without an exit notification a chain of relays does not come to an end by itself.
-/
import Verif.Props.Chain
import Verif.Props.Gone

set_option linter.unusedSectionVars false

namespace Bsp
open Frame Transport Link
open Bridge (Hand Carry Who)

section
variable [LawfulExt] [FloatText]
variable {kc : Kind} {kl : Nat → Kind} {n : Nat}

/-! ### One link -/

/-- As long as neither side has gone or dropped its receiver, and nobody has sent exit, both readers wait for input. -/
theorem link_open {ka kb : Kind} {l : Link} (hr : Link.Reachable ka kb l) (okA : ∀ m ∈ l.a.io.accepted, Spec.Sayable m)
    (okB : ∀ m ∈ l.b.io.accepted, Spec.Sayable m) (xA : Message.notification .exit ∉ l.a.io.accepted)
    (xB : Message.notification .exit ∉ l.b.io.accepted) (gA : l.a.gone = false) (gB : l.b.gone = false)
    (rA : l.a.io.rxAlive = true) (rB : l.b.io.rxAlive = true) :
    l.a.io.reader.ended = false ∧ l.b.io.reader.ended = false := by
  have lv : Spec.Leaving l.a.io.accepted l :=
    ⟨⟨gA, fun e => by rw [gB] at e; cases e⟩, okA, okB, xA, List.prefix_append _ _, xB, rA, .inl rB⟩
  have li := leaveInv hr lv
  obtain ⟨h1, h2⟩ := leave_reader hr lv li
  have hnx : Message.notification .exit ∉ l.b.io.delivered := by
    intro hd
    obtain ⟨m, hm, he⟩ := List.mem_map.1 ((C56_heard (link_pair hr) okA).subset hd)
    rw [heard_exit he] at hm
    exact xA hm
  have eB : l.b.io.reader.ended = false := by
    cases e : l.b.io.reader.ended with
    | false => rfl
    | true => exact absurd (h2 e).2 hnx
  refine ⟨?_, eB⟩
  cases e : l.a.io.reader.ended with
  | false => rfl
  | true =>
    have := (h1 e).2.2
    simp [Side.closed, gB, eB] at this

/-! ### The chain -/

theorem chain_grows {w w' : Chain.World} {x : Who} (h : Chain.Next kc kl n w x w') (i : Nat) :
    Grows (w.link i).a (w'.link i).a ∧ Grows (w.link i).b (w'.link i).b := by
  cases h with
  | client hm =>
    by_cases e : i = 0
    · subst e; rw [set_self]; exact ⟨move_grows hm, grows_refl _⟩
    · rw [set_other _ _ e]; exact ⟨grows_refl _, grows_refl _⟩
  | server hm =>
    by_cases e : i = n
    · subst e; rw [set_self]; exact ⟨grows_refl _, move_grows hm⟩
    · rw [set_other _ _ e]; exact ⟨grows_refl _, grows_refl _⟩
  | @relay j b hj hm =>
    obtain ⟨⟨e1, e2⟩, h1, h2⟩ := relay_sides hm
    by_cases e : i = j
    · subst e
      rw [put_self, e1]
      refine ⟨grows_refl _, ?_⟩
      rcases h1 with h1 | ⟨ev, h1⟩
      · rw [h1]; exact grows_refl _
      · exact move_grows h1
    · by_cases e' : i = j + 1
      · subst e'
        rw [put_next, e2]
        refine ⟨?_, grows_refl _⟩
        rcases h2 with h2 | ⟨ev, h2⟩
        · rw [h2]; exact grows_refl _
        · exact move_grows h2
      · rw [put_other _ _ e e']; exact ⟨grows_refl _, grows_refl _⟩

/-- Exit has not been sent on link `i` (though it may have been on others), and the link is not given up by what is at its two ends: a client or a
server is there and has its receiver, and to a relay no write has failed on its other connection. -/
structure Spec.Unbroken (n i : Nat) (w : Chain.World) : Prop where
  okA : ∀ m ∈ (w.link 0).a.io.accepted, Spec.Sayable m
  okB : ∀ m ∈ (w.link n).b.io.accepted, Spec.Sayable m
  exitA : Message.notification .exit ∉ (w.link i).a.io.accepted
  exitB : Message.notification .exit ∉ (w.link i).b.io.accepted
  first : i = 0 → (w.link 0).a.gone = false ∧ (w.link 0).a.io.rxAlive = true
  last : i = n → (w.link n).b.gone = false ∧ (w.link n).b.io.rxAlive = true
  before : ∀ j, i = j + 1 → (w.link j).b.io.writer ≠ .failed ∧ (w.link j).b.io.writer ≠ .panicked
  after : i < n → (w.link (i + 1)).a.io.writer ≠ .failed ∧ (w.link (i + 1)).a.io.writer ≠ .panicked

theorem unbroken_before {w w' : Chain.World} {x : Who} {i : Nat} (hs : Chain.Next kc kl n w x w')
    (h : Spec.Unbroken n i w') : Spec.Unbroken n i w := by
  have g := chain_grows hs
  have alive : ∀ {s s' : Side}, Grows s s' → s'.gone = false ∧ s'.io.rxAlive = true → s.gone = false ∧ s.io.rxAlive = true := by
    intro s s' g h
    refine ⟨?_, g.rx h.2⟩
    cases e : s.gone with
    | false => rfl
    | true => have := g.gone e; rw [h.1] at this; cases this
  have well : ∀ {s s' : Side}, Grows s s' → s'.io.writer ≠ .failed ∧ s'.io.writer ≠ .panicked →
      s.io.writer ≠ .failed ∧ s.io.writer ≠ .panicked := by
    intro s s' g h
    constructor <;> intro e
    · exact h.1 ((g.writer (by rw [e]; rfl)).trans e)
    · exact h.2 ((g.writer (by rw [e]; rfl)).trans e)
  exact ⟨fun m hm => h.okA m ((g 0).1.accepted.subset hm), fun m hm => h.okB m ((g n).2.accepted.subset hm),
    fun hm => h.exitA ((g i).1.accepted.subset hm), fun hm => h.exitB ((g i).2.accepted.subset hm),
    fun e => alive (g 0).1 (h.first e), fun e => alive (g n).2 (h.last e),
    fun j e => well (g j).2 (h.before j e), fun e => well (g (i + 1)).1 (h.after e)⟩

/-- When the threads of the relays at the two ends of the link are there, its readers wait for input. -/
theorem unbroken_open {w : Chain.World} {i : Nat} (h : Chain.Reachable kc kl n w) (hi : i ≤ n) (hu : Spec.Unbroken n i w)
    (h1 : ∀ j, i = j + 1 → w.down j ≠ .ended) (h2 : i < n → w.up i ≠ .ended) :
    (w.link i).a.gone = false ∧ (w.link i).b.gone = false ∧
    (w.link i).a.io.reader.ended = false ∧ (w.link i).b.io.reader.ended = false := by
  have ha : (w.link i).a.gone = false ∧ (w.link i).a.io.rxAlive = true := by
    cases i with
    | zero => exact hu.first rfl
    | succ j =>
      have bi := bridgeInv (chain_around h j (by omega))
      have rx : (w.link (j + 1)).a.io.rxAlive = true := by
        cases e : (w.link (j + 1)).a.io.rxAlive with
        | true => rfl
        | false => exact absurd (bi.down.2 (.inl e)) (h1 j rfl)
      refine ⟨?_, rx⟩
      cases e : (w.link (j + 1)).a.gone with
      | false => rfl
      | true =>
        have := (bi.drops (bi.gone.trans e)).2.1
        change (w.link (j + 1)).a.io.rxAlive = false at this
        rw [rx] at this; cases this
  have hb : (w.link i).b.gone = false ∧ (w.link i).b.io.rxAlive = true := by
    by_cases e : i < n
    · have bi := bridgeInv (chain_around h i e)
      have rx : (w.link i).b.io.rxAlive = true := by
        cases t : (w.link i).b.io.rxAlive with
        | true => rfl
        | false => exact absurd (bi.up.2 (.inl t)) (h2 e)
      refine ⟨?_, rx⟩
      cases t : (w.link i).b.gone with
      | false => rfl
      | true =>
        have := (bi.drops t).1.1
        change (w.link i).b.io.rxAlive = false at this
        rw [rx] at this; cases this
    · have e : i = n := by omega
      subst e; exact hu.last rfl
  obtain ⟨_, s2⟩ := chain_sent h hu.okA i hi
  obtain ⟨_, s4⟩ := chain_back h hu.okB (n - i) i (by omega)
  obtain ⟨r1, r2⟩ := link_open (chain_link h i hi) s2 s4 hu.exitA hu.exitB ha.1 hb.1 ha.2 hb.2
  exact ⟨ha.1, hb.1, r1, r2⟩

theorem unbroken_hands {w : Chain.World} {i : Nat} (h : Chain.Reachable kc kl n w) (hi : i ≤ n) (hu : Spec.Unbroken n i w) :
    (∀ j, i = j + 1 → w.down j ≠ .ended) ∧ (i < n → w.up i ≠ .ended) := by
  induction h with
  | start => exact ⟨fun _ _ => nofun, fun _ => nofun⟩
  | @step w x w' hr hs ih =>
    have hu0 := unbroken_before hs hu
    obtain ⟨d, u⟩ := ih hu0
    obtain ⟨_, _, ea, eb⟩ := unbroken_open hr hi hu0 d u
    have done : ∀ {k : Kind} {s : State}, Transport.Reachable k s → s.writer.ended = true → s.writer ≠ .failed ∧ s.writer ≠ .panicked →
        s.txAlive = false := by
      intro k s h1 h2 h3
      cases e : s.writer with
      | done => exact (C54_drained h1 e).1
      | failed => exact absurd e h3.1
      | panicked => exact absurd e h3.2
      | idle => rw [e] at h2; cases h2
      | writing r => rw [e] at h2; cases h2
    cases hs with
    | client hm => exact ⟨d, u⟩
    | server hm => exact ⟨d, u⟩
    | @relay j b hj hm =>
      constructor
      · rintro j' rfl
        by_cases e : j' = j
        · subst e
          have e0 : (w.put j' b).down j' = b.down := by simp [Chain.World.put]
          rw [e0]
          have d0 := d j' rfl
          have bi := bridgeInv (chain_around hr j' hj)
          cases hm with
          | near => exact d0
          | far => exact d0
          | up => exact d0
          | finish _ _ h1 => exact absurd h1 d0
          | @down _ hh _ aw hc =>
            change hh ≠ _
            generalize hdn : (w.around j').down = hd at hc
            have d1 : hd ≠ .ended := by rw [← hdn]; exact d0
            cases hc with
            | recv => exact nofun
            | send => exact nofun
            | closed h1 => change (w.link (j' + 1)).a.io.reader.ended = true at h1; rw [ea] at h1; cases h1
            | unsent h1 =>
              have t := done (pair_inv (link_pair (chain_link hr j' (by omega)))).2.1 h1 (hu0.before j' rfl)
              exact absurd (bi.down.2 (.inr t)) d0
            | dropRx => exact absurd rfl d1
            | dropTx => exact absurd rfl d1
        · rw [(hands_put e).2]; exact d j' rfl
      · intro hin
        by_cases e : i = j
        · subst e
          have e0 : (w.put i b).up i = b.up := by simp [Chain.World.put]
          rw [e0]
          have u0 := u hin
          have bi := bridgeInv (chain_around hr i hj)
          cases hm with
          | near => exact u0
          | far => exact u0
          | down => exact u0
          | finish _ h1 => exact absurd h1 u0
          | @up _ hh _ aw hc =>
            change hh ≠ _
            generalize hdn : (w.around i).up = hd at hc
            have d1 : hd ≠ .ended := by rw [← hdn]; exact u0
            cases hc with
            | recv => exact nofun
            | send => exact nofun
            | closed h1 => change (w.link i).b.io.reader.ended = true at h1; rw [eb] at h1; cases h1
            | unsent h1 =>
              have t := done (pair_inv (link_pair (chain_link hr (i + 1) (by omega)))).1 h1 (hu0.after hin)
              exact absurd (bi.up.2 (.inr t)) u0
            | dropRx => exact absurd rfl d1
            | dropTx => exact absurd rfl d1
        · rw [(hands_put e).1]; exact u hin

/-- C146: as long as exit has not been sent on it, a link stays open unless what is at one of its ends gives it up: `join` returns on
neither side, and a relay at its end does not exit.  A relay gives it up only if a write has failed on its other connection;
not when that connection has ended. -/
theorem C146_open {w : Chain.World} {i : Nat} (h : Chain.Reachable kc kl n w) (hi : i ≤ n) (hu : Spec.Unbroken n i w) :
    (w.link i).a.gone = false ∧ (w.link i).b.gone = false ∧
    join (Chain.near kc i) (w.link i).a.io = .waiting ∧ join (kl i) (w.link i).b.io = .waiting := by
  obtain ⟨d, u⟩ := unbroken_hands h hi hu
  obtain ⟨g1, g2, e1, e2⟩ := unbroken_open h hi hu d u
  refine ⟨g1, g2, ?_, ?_⟩
  · unfold join
    cases e : (w.link i).a.io.reader <;> simp [e, Reader.ended] at e1 ⊢
  · unfold join
    cases e : (w.link i).b.io.reader <;> simp [e, Reader.ended] at e2 ⊢

theorem silent_writer {k : Kind} {s : State} (h : Transport.Reachable k s) (ha : s.accepted = []) :
    s.writer ≠ .failed ∧ s.writer ≠ .panicked := by
  have := writeInv h
  constructor <;> intro e <;> simp only [WriteInv, e] at this <;> obtain ⟨_, ms, m, _, _, h1, _⟩ := this <;> simp [ha] at h1

/-- C146: a server behind one or more relays that has sent nothing is not told that the client has gone: as
long as it is there and has its receiver its `join` does not return, whatever the client has sent but exit, and whatever has
become of the client and of the other relays.  (Without a relay between them it is told: C108.) -/
theorem C146_unseen {w : Chain.World} (h : Chain.Reachable kc kl n w) (hn : 1 ≤ n)
    (okA : ∀ m ∈ (w.link 0).a.io.accepted, Spec.Sayable m) (hx : Message.notification .exit ∉ (w.link 0).a.io.accepted)
    (hb : (w.link n).b.io.accepted = []) (hg : (w.link n).b.gone = false) (hr : (w.link n).b.io.rxAlive = true) :
    join (kl n) (w.link n).b.io = .waiting ∧ (w.link n).a.gone = false := by
  have okB : ∀ m ∈ (w.link n).b.io.accepted, Spec.Sayable m := by rw [hb]; simp
  have := C146_open h (Nat.le_refl n) ⟨okA, okB,
    fun hm => hx (hop_exit ((chain_sent h okA n (Nat.le_refl n)).1.subset hm)), by rw [hb]; simp, fun e => by omega, fun _ => ⟨hg, hr⟩,
    fun j e => by
      have hp := (chain_back h okB 1 j (by omega)).1
      rw [hb] at hp
      exact silent_writer (pair_inv (link_pair (chain_link h j (by omega)))).2.1 (List.prefix_nil.1 hp),
    fun e => by omega⟩
  exact ⟨this.2.2.2, this.1⟩

/-- C146: the same the other way round: a client that has sent nothing is not told that the server has gone. -/
theorem C146_unseen_back {w : Chain.World} (h : Chain.Reachable kc kl n w) (hn : 1 ≤ n)
    (okB : ∀ m ∈ (w.link n).b.io.accepted, Spec.Sayable m) (hx : Message.notification .exit ∉ (w.link n).b.io.accepted)
    (ha : (w.link 0).a.io.accepted = []) (hg : (w.link 0).a.gone = false) (hr : (w.link 0).a.io.rxAlive = true) :
    join kc (w.link 0).a.io = .waiting ∧ (w.link 0).b.gone = false := by
  have okA : ∀ m ∈ (w.link 0).a.io.accepted, Spec.Sayable m := by rw [ha]; simp
  have := C146_open h (Nat.zero_le n) ⟨okA, okB, by rw [ha]; simp,
    fun hm => hx (hop_exit ((chain_back h okB n 0 (by omega)).1.subset hm)), fun _ => ⟨hg, hr⟩, fun e => by omega,
    fun j e => by omega, fun e => by
      have hp := (chain_sent h okA 1 hn).1
      rw [ha] at hp
      exact silent_writer (pair_inv (link_pair (chain_link h 1 hn))).1 (List.prefix_nil.1 hp)⟩
  exact ⟨this.2.2.1, this.2.1⟩

/-- C146: two or more relays between a client and a server that have sent nothing stay for ever, whatever becomes of the
client and the server: each waits for the end of the connection to the next. -/
theorem C146_orphans {w : Chain.World} (h : Chain.Reachable kc kl n w) (hn : 2 ≤ n) (ha : (w.link 0).a.io.accepted = [])
    (hb : (w.link n).b.io.accepted = []) : ∀ i < n, (w.link i).b.gone = false ∧ (w.link (i + 1)).a.gone = false := by
  have okA : ∀ m ∈ (w.link 0).a.io.accepted, Spec.Sayable m := by rw [ha]; simp
  have okB : ∀ m ∈ (w.link n).b.io.accepted, Spec.Sayable m := by rw [hb]; simp
  have inner : ∀ i, 0 < i → i < n → (w.link i).a.gone = false ∧ (w.link i).b.gone = false := by
    intro i h0 hi
    have := C146_open h (Nat.le_of_lt hi) ⟨okA, okB,
      (fun hm => absurd (hop_exit ((chain_sent h okA i (by omega)).1.subset hm)) (by rw [ha]; simp)),
      (fun hm => absurd (hop_exit ((chain_back h okB (n - i) i (by omega)).1.subset hm)) (by rw [hb]; simp)),
      fun e => by omega, fun e => by omega,
      fun j e => by
        have hp := (chain_back h okB (n - j) j (by omega)).1
        rw [hb] at hp
        have nil : ∀ k, hop k [] = [] := fun k => by
          induction k with
          | zero => rfl
          | succ k ih => simp [hop, ih]
        rw [nil] at hp
        exact silent_writer (pair_inv (link_pair (chain_link h j (by omega)))).2.1 (List.prefix_nil.1 hp),
      fun e => by
        have hp := (chain_sent h okA (i + 1) (by omega)).1
        rw [ha] at hp
        have nil : ∀ k, hop k [] = [] := fun k => by
          induction k with
          | zero => rfl
          | succ k ih => simp [hop, ih]
        rw [nil] at hp
        exact silent_writer (pair_inv (link_pair (chain_link h (i + 1) (by omega)))).1 (List.prefix_nil.1 hp)⟩
    exact ⟨this.1, this.2.1⟩
  intro i hi
  have bi := bridgeInv (chain_around h i hi)
  have e : (w.link i).b.gone = (w.link (i + 1)).a.gone := bi.gone
  by_cases h1 : i + 1 < n
  · have := (inner (i + 1) (by omega) h1).1
    exact ⟨e.trans this, this⟩
  · have := (inner i (by omega) hi).2
    exact ⟨this, e.symm.trans this⟩

/-! ### After everything has been received -/

/-- A writer thread that has nothing to do and gets nothing to do does not fail. -/
theorem calm_move {k k' : Kind} {x y x' : Side} {ev : Ev} (h : Move k k' x y ev x')
    (ha : x'.io.accepted.length ≤ x.io.accepted.length) (hw : x.io.writer = .idle ∨ x.io.writer = .done) :
    x'.io.writer = .idle ∨ x'.io.writer = .done := by
  have gen : ∀ {s io act}, Transport.Step k s act io → io.accepted.length ≤ s.accepted.length →
      s.writer = .idle ∨ s.writer = .done → io.writer = .idle ∨ io.writer = .done := by
    intro s io act hs hl hw
    cases hs with
    | read r _ _ => cases r <;> (try rename_i o; cases o) <;> exact hw
    | accept m => simp at hl; omega
    | write a b h1 => rw [h1] at hw; simp at hw
    | written => exact .inl rfl
    | writeFails b h1 => rw [h1] at hw; simp at hw
    | close => exact .inr rfl
    | _ => exact hw
  have key : ∀ {act io}, Transport.Step k x.io act io → io.accepted.length ≤ x.io.accepted.length →
      io.writer = .idle ∨ io.writer = .done := fun hs hl => gen hs hl hw
  cases h with
  | own _ hs => exact key hs ha
  | arrive _ _ _ hs => exact key hs ha
  | fin _ _ _ hs => exact key hs ha
  | reset _ _ _ _ hs => exact key hs ha
  | fails _ _ _ _ hs => exact key hs ha
  | exit => exact hw

/-- Anything may happen between these states. Executions of pairs of bsp-server/src/lib.rs:42-66. -/
inductive Chain.Later (kc : Kind) (kl : Nat → Kind) (n : Nat) : Chain.World → Chain.World → Prop
  | nil (w) : Later kc kl n w w
  | snoc {w w' x w''} : Later kc kl n w w' → Chain.Next kc kl n w' x w'' → Later kc kl n w w''

theorem later_reachable {w u : Chain.World} (h : Chain.Later kc kl n w u) (hr : Chain.Reachable kc kl n w) :
    Chain.Reachable kc kl n u := by
  induction h with
  | nil => exact hr
  | snoc _ hs ih => exact .step ih hs

theorem later_runs {w u : Chain.World} (h : Chain.Runs kc kl n w u) : Chain.Later kc kl n w u := by
  induction h with
  | nil => exact .nil _
  | snoc _ hs _ ih => exact .snoc ih hs

theorem later_append {u v w : Chain.World} (h1 : Chain.Later kc kl n u v) (h2 : Chain.Later kc kl n v w) :
    Chain.Later kc kl n u w := by
  induction h2 with
  | nil => exact h1
  | snoc _ hs ih => exact .snoc ih hs

/-- The writer threads of the relays have nothing to do, and have not failed. Proof helper for
bsp-server/src/transporter.rs:64-74. -/
def Unhurried (n : Nat) (w : Chain.World) : Prop :=
  ∀ i < n, ((w.link i).b.io.writer = .idle ∨ (w.link i).b.io.writer = .done) ∧
    ((w.link (i + 1)).a.io.writer = .idle ∨ (w.link (i + 1)).a.io.writer = .done)

/-- At rest they are so. -/
theorem calm_rest {pre : List Message} {w : Chain.World} (h : Chain.Reachable kc kl n w) (hp : Spec.Passing pre (w.ends n))
    (hq : Chain.Quiet kc kl n w) : Unhurried n w := by
  intro i hi
  constructor
  · obtain ⟨ll, lv⟩ := chain_leaving h hp (show i ≤ n by omega)
    have wB := (leaveInv ll lv).wB
    have lq := chain_quiet h hp hq (show i ≤ n by omega)
    cases e : (w.link i).b.io.writer with
    | idle => exact .inl rfl
    | done => exact .inr rfl
    | failed => exact absurd e wB.1
    | panicked => exact absurd e wB.2
    | writing r =>
      exfalso
      have g : (w.link i).b.gone = false := by
        cases t : (w.link i).b.gone with
        | false => rfl
        | true => have := (lv.gone.2 t).2; change (w.link i).b.io.writer.ended = true at this; rw [e] at this; cases this
      cases r with
      | nil => cases lq _ _ (.right (l := keptLink (w.link i)) (.own g (.written _ e) (by simp) (by simp) (by simp)))
      | cons c r => cases lq _ _ (.right (l := keptLink (w.link i)) (.own g (.write _ [c] r e (by simp)) (by simp) (by simp) (by simp)))
  · obtain ⟨ll, lv⟩ := chain_leaving h hp (show i + 1 ≤ n by omega)
    have wA := (leaveInv ll lv).wA
    have lq := chain_quiet h hp hq (show i + 1 ≤ n by omega)
    cases e : (w.link (i + 1)).a.io.writer with
    | idle => exact .inl rfl
    | done => exact .inr rfl
    | failed => exact absurd e wA.1
    | panicked => exact absurd e wA.2
    | writing r =>
      exfalso
      cases r with
      | nil => cases lq _ _ (.left (l := keptLink (w.link (i + 1))) (.own rfl (.written _ e) (by simp) (by simp) (by simp)))
      | cons c r => cases lq _ _ (.left (l := keptLink (w.link (i + 1))) (.own rfl (.write _ [c] r e (by simp)) (by simp) (by simp) (by simp)))

theorem hop_length (k : Nat) (ms : List Message) : (hop k ms).length = ms.length := by
  induction k with
  | zero => rfl
  | succ k ih => simp [hop, ih]

/-- And they stay so if the client and the server send nothing more. -/
theorem calm_later {pre : List Message} {w u : Chain.World} (h : Chain.Reachable kc kl n w) (hp : Spec.Passing pre (w.ends n))
    (hx : Message.notification .exit ∉ (w.link 0).a.io.accepted) (hq : Chain.Quiet kc kl n w) (hu : Chain.Later kc kl n w u)
    (ha : (u.link 0).a.io.accepted <+: (w.link 0).a.io.accepted) (hb : (u.link n).b.io.accepted <+: (w.link n).b.io.accepted) :
    Unhurried n u ∧ ∀ i, (w.link i).a.io.accepted <+: (u.link i).a.io.accepted ∧ (w.link i).b.io.accepted <+: (u.link i).b.io.accepted := by
  obtain ⟨one, hand, up⟩ := chain_drained h hp hx hq
  have back : ∀ k i, i + k = n → (w.link i).b.io.accepted.length = (w.link n).b.io.accepted.length := by
    intro k
    induction k with
    | zero => rintro i rfl; rfl
    | succ k ih =>
      intro i hi
      rw [← ih (i + 1) (by omega), ← (hand i (by omega)).2, (one (i + 1) (by omega)).2, List.length_map]
  induction hu with
  | nil => exact ⟨calm_rest h hp hq, fun _ => ⟨List.prefix_refl _, List.prefix_refl _⟩⟩
  | @snoc u x u' hl hs ih =>
    have g := chain_grows hs
    obtain ⟨c, grew⟩ := ih ((g 0).1.accepted.trans ha) ((g n).2.accepted.trans hb)
    refine ⟨?_, fun i => ⟨(grew i).1.trans (g i).1.accepted, (grew i).2.trans (g i).2.accepted⟩⟩
    have hr := Chain.Reachable.step (later_reachable hl h) hs
    have bA : ∀ i ≤ n, (u'.link i).a.io.accepted.length ≤ (u.link i).a.io.accepted.length := by
      intro i hi
      have h1 := (chain_sent hr (fun m hm => hp.okA m (ha.subset hm)) i hi).1.length_le
      have h2 := congrArg List.length (up i hi)
      rw [hop_length] at h1 h2
      have := ha.length_le
      have := (grew i).1.length_le
      omega
    have bB : ∀ i ≤ n, (u'.link i).b.io.accepted.length ≤ (u.link i).b.io.accepted.length := by
      intro i hi
      have h1 := (chain_back hr (fun m hm => hp.okB m (hb.subset hm)) (n - i) i (by omega)).1.length_le
      have h2 := back (n - i) i (by omega)
      rw [hop_length] at h1
      have := hb.length_le
      have := (grew i).2.length_le
      omega
    cases hs with
    | @client _ a hm =>
      intro i hi
      by_cases e : i = 0
      · subst e; rw [set_self, set_other _ _ (show 0 + 1 ≠ 0 by omega)]; exact c 0 hi
      · rw [set_other _ _ e, set_other _ _ (show i + 1 ≠ 0 by omega)]; exact c i hi
    | @server _ b hm =>
      intro i hi
      rw [set_other _ _ (show i ≠ n by omega)]
      by_cases e : i + 1 = n
      · subst e; rw [set_self]; exact c i hi
      · rw [set_other _ _ e]; exact c i hi
    | @relay j b hj hm =>
      obtain ⟨⟨e1, e2⟩, h1, h2⟩ := relay_sides hm
      intro i hi
      constructor
      · by_cases e : i = j
        · subst e
          have := bB i (by omega)
          rw [put_self] at this ⊢
          rcases h1 with h1 | ⟨ev, h1⟩
          · rw [h1]; exact (c i hi).1
          · exact calm_move h1 this (c i hi).1
        · by_cases e' : i = j + 1
          · subst e'; rw [put_next, e2]; exact (c (j + 1) hi).1
          · rw [put_other _ _ e e']; exact (c i hi).1
      · by_cases e : i = j
        · subst e
          have := bA (i + 1) (by omega)
          rw [put_next] at this ⊢
          rcases h2 with h2 | ⟨ev, h2⟩
          · rw [h2]; exact (c i hi).2
          · exact calm_move h2 this (c i hi).2
        · by_cases e' : i + 1 = j
          · subst e'; rw [put_self, e1]; exact (c i hi).2
          · rw [put_other _ _ e' (by omega)]; exact (c i hi).2

/-- C146: it is the same after a conversation.  Client and server have sent what they wanted (but not exit), go on receiving,
and nothing can happen any more, so each has received everything (C142_rest).  Whatever happens then, and whatever becomes of
the two, as long as they send nothing more: two relays or more stay for ever; and if there is one relay or more, a server that
is there and receives is never told that the client has gone, nor such a client that the server has gone. -/
theorem C146_after {pre : List Message} {w u : Chain.World} (h : Chain.Reachable kc kl n w) (hp : Spec.Passing pre (w.ends n))
    (hx : Message.notification .exit ∉ (w.link 0).a.io.accepted) (hq : Chain.Quiet kc kl n w) (hu : Chain.Later kc kl n w u)
    (ha : (u.link 0).a.io.accepted = (w.link 0).a.io.accepted) (hb : (u.link n).b.io.accepted = (w.link n).b.io.accepted) :
    (2 ≤ n → ∀ i < n, (u.link i).b.gone = false ∧ (u.link (i + 1)).a.gone = false) ∧
    (1 ≤ n → (u.link n).b.gone = false → (u.link n).b.io.rxAlive = true → join (kl n) (u.link n).b.io = .waiting) ∧
    (1 ≤ n → (u.link 0).a.gone = false → (u.link 0).a.io.rxAlive = true → join kc (u.link 0).a.io = .waiting) := by
  have hr := later_reachable hu h
  obtain ⟨c, _⟩ := calm_later h hp hx hq hu (ha ▸ List.prefix_refl _) (hb ▸ List.prefix_refl _)
  have okA : ∀ m ∈ (u.link 0).a.io.accepted, Spec.Sayable m := by rw [ha]; exact hp.okA
  have okB : ∀ m ∈ (u.link n).b.io.accepted, Spec.Sayable m := by rw [hb]; exact hp.okB
  have unbroken : ∀ i ≤ n, (i = 0 → (u.link 0).a.gone = false ∧ (u.link 0).a.io.rxAlive = true) →
      (i = n → (u.link n).b.gone = false ∧ (u.link n).b.io.rxAlive = true) → Spec.Unbroken n i u := by
    intro i hi h1 h2
    refine ⟨okA, okB, ?_, ?_, h1, h2, ?_, ?_⟩
    · intro hm
      have := hop_exit ((chain_sent hr okA i hi).1.subset hm)
      rw [ha] at this; exact hx this
    · intro hm
      have := hop_exit ((chain_back hr okB (n - i) i (by omega)).1.subset hm)
      rw [hb] at this; exact hp.sentB this
    · rintro j rfl
      rcases (c j (by omega)).1 with e | e <;> simp [e]
    · intro hi
      rcases (c i hi).2 with e | e <;> simp [e]
  refine ⟨?_, ?_, ?_⟩
  · intro hn i hi
    have e : (u.link i).b.gone = (u.link (i + 1)).a.gone := (bridgeInv (chain_around hr i hi)).gone
    by_cases h1 : i + 1 < n
    · have := (C146_open hr (by omega) (unbroken (i + 1) (by omega) (fun e => by omega) (fun e => by omega))).1
      exact ⟨e.trans this, this⟩
    · have := (C146_open hr (by omega) (unbroken i (by omega) (fun e => by omega) (fun e => by omega))).2.1
      exact ⟨this, e.symm.trans this⟩
  · intro hn h1 h2
    exact (C146_open hr (Nat.le_refl n) (unbroken n (Nat.le_refl n) (fun e => by omega) (fun _ => ⟨h1, h2⟩))).2.2.2
  · intro hn h1 h2
    exact (C146_open hr (Nat.zero_le n) (unbroken 0 (Nat.zero_le n) (fun _ => ⟨h1, h2⟩) (fun e => by omega))).2.2.1

/-! ### A relay that is left by both -/

/-- A reader thread whose other side is closed has ended, when its program receives and nothing can happen any more. -/
theorem left_reader {k k' : Kind} {x y : Side} (hp : x.io.arrived <+: y.io.out) (hg : x.gone = false) (hc : y.closed k' = true)
    (no : ∀ act x', Move k k' x y (.act act) x' → Link.Ev.app (.act act) = false → (∀ m, act ≠ .deliver m) → False)
    (nd : ∀ m io, Step k x.io (.deliver m) io → False) : x.io.reader.ended = true := by
  have hin : x.io.inEnd ≠ none := by
    intro he
    obtain ⟨t, ht⟩ := hp
    by_cases hne : t = []
    · rw [hne, List.append_nil] at ht
      exact no _ _ (.fin hg hc ht (.hangUp _ false he)) rfl (by simp)
    · exact no _ _ (.arrive hg hne (by rw [ht]; exact List.prefix_refl _) (.arrive _ t he)) rfl (by simp)
  cases e : x.io.reader with
  | reading =>
    cases e2 : x.io.inEnd with
    | none => exact absurd e2 hin
    | some b =>
      exact (no _ _ (.own hg (.read _ (readMsg (⟨x.io.unread, b⟩ : Flat)) e (by simp [Settled, e2])) (by simp) (by simp) (by simp))
        rfl (by simp)).elim
  | sending m =>
    cases hx : x.io.rxAlive with
    | true => exact (nd _ _ (.deliver _ m e hx)).elim
    | false => exact (no _ _ (.own hg (.undeliverable _ m e hx) (by simp) (by simp) (by simp)) rfl (by simp)).elim
  | _ => rfl

theorem left_writer {k k' : Kind} {x y : Side} (hg : x.gone = false) (ht : x.io.txAlive = false)
    (no : ∀ act x', Move k k' x y (.act act) x' → Link.Ev.app (.act act) = false → (∀ m, act ≠ .deliver m) → False) :
    x.io.writer.ended = true := by
  cases e : x.io.writer with
  | idle => exact (no _ _ (.own hg (.close _ e ht) (by simp) (by simp) (by simp)) rfl (by simp)).elim
  | writing r =>
    cases r with
    | nil => exact (no _ _ (.own hg (.written _ e) (by simp) (by simp) (by simp)) rfl (by simp)).elim
    | cons c r => exact (no _ _ (.own hg (.write _ [c] r e (by simp)) (by simp) (by simp) (by simp)) rfl (by simp)).elim
  | _ => rfl

/-- A relay whose two neighbours have gone has exited, when nothing can happen any more. -/
theorem both_gone {kc kl ks : Kind} {w : Bridge.World} (h : Bridge.Reachable kc kl ks w) (ha : w.left.a.gone = true)
    (hb : w.right.b.gone = true) (hq : Bridge.Still kc kl ks w) : w.left.b.gone = true := by
  cases g : w.left.b.gone with
  | true => rfl
  | false =>
    exfalso
    have bi := bridgeInv h
    have g' : w.right.a.gone = false := bi.gone ▸ g
    have aw : w.awake := ⟨g, g'⟩
    obtain ⟨q1, q2⟩ := quiet_hands h hq
    obtain ⟨c1, c2⟩ := quiet_carry hq aw
    have noL : ∀ act x', Move kl kc w.left.b w.left.a (.act act) x' → Link.Ev.app (.act act) = false →
        (∀ m, act ≠ .deliver m) → False := fun act x' h1 h2 h3 => hq _ (.near h1 h2 h3)
    have noR : ∀ act x', Move .socket ks w.right.a w.right.b (.act act) x' → Link.Ev.app (.act act) = false →
        (∀ m, act ≠ .deliver m) → False := fun act x' h1 h2 h3 => hq _ (.far h1 h2 h3)
    have rL : w.left.b.io.reader.ended = true := by
      refine left_reader (pair_inv (link_pair (bridge_left h))).2.2.1 g (by simp [Side.closed, ha]) noL fun m io hs => ?_
      cases e : w.up with
      | waiting => exact c1 e (.recv hs)
      | holding m => rw [e] at q1; cases q1
      | ended => cases hs with | deliver _ _ hx => exact c1 e (.dropRx hx)
    have rR : w.right.a.io.reader.ended = true := by
      refine left_reader (pair_inv (link_pair (bridge_right h))).2.2.2 g' (by simp [Side.closed, hb]) noR fun m io hs => ?_
      cases e : w.down with
      | waiting => exact c2 e (.recv hs)
      | holding m => rw [e] at q2; cases q2
      | ended => cases hs with | deliver _ _ hx => exact c2 e (.dropRx hx)
    obtain ⟨e1, e2⟩ := quiet_ended h hq
    obtain ⟨u1, u2, u3⟩ := e1 rL
    obtain ⟨d1, d2, d3⟩ := e2 rR
    exact hq _ (.finish aw u1 d1 u2 d3 d2 u3 (join_returns ⟨rL, left_writer g d3 noL⟩)
      (fun _ => join_returns ⟨rR, left_writer g' u3 noR⟩))

/-- C146: a relay whose two neighbours have gone, at whatever moment and whatever they had sent, exits; so a single relay
does, when the client and the server have gone. -/
theorem C146_between {w : Chain.World} (h : Chain.Reachable kc kl n w) {i : Nat} (hi : i < n) (ha : (w.link i).a.gone = true)
    (hb : (w.link (i + 1)).b.gone = true) (hq : Chain.Quiet kc kl n w) :
    (w.link i).b.gone = true ∧ (w.link (i + 1)).a.gone = true := by
  have hr := chain_around h i hi
  have := both_gone hr ha hb (fun b hb => by cases hq _ _ (.relay hi hb))
  exact ⟨this, (bridgeInv hr).gone.symm.trans this⟩

/-- C146: exit is of no use if the client does not wait until it has been written: a client that hands it to its writer thread
and exits before a byte has been written (without `join`) may leave the server behind one relay or more waiting for ever. -/
theorem C146_unwritten {w : Chain.World} (h : Chain.Reachable kc kl n w) (hn : 1 ≤ n)
    (okA : ∀ m ∈ (w.link 0).a.io.accepted, Spec.Sayable m) (ho : (w.link 0).a.io.out = [])
    (hb : (w.link n).b.io.accepted = []) (hg : (w.link n).b.gone = false) (hr : (w.link n).b.io.rxAlive = true) :
    join (kl n) (w.link n).b.io = .waiting ∧ (w.link n).a.gone = false := by
  have nil : ∀ i, i < n → (w.link (i + 1)).a.io.accepted = [] := by
    intro i
    induction i with
    | zero =>
      intro hi
      have h1 := (bridgeInv (chain_around h 0 hi)).up.1.1
      have h2 : (w.link 0).b.io.delivered = [] := by
        obtain ⟨_, h2, h3, _⟩ := pair_inv (link_pair (chain_link h 0 (by omega)))
        simp only [ho] at h3
        have e : (w.link 0).b.io.arrived = [] := List.prefix_nil.1 h3
        have := C51_prefix h2 [] false
        rw [e, show (readAll (⟨[] ++ [], false⟩ : Flat)).1 = ([] : List Message) from
          congrArg Prod.fst (C13_heard_stream [] (by simp))] at this
        exact List.prefix_nil.1 this
      have h3 := (List.prefix_append _ _).trans h1
      rw [show (w.around 0).left.b.io.delivered = [] from h2] at h3
      exact List.prefix_nil.1 h3
    | succ i ih =>
      intro hi
      have h1 := (bridgeInv (chain_around h (i + 1) hi)).up.1.1
      have h2 := C56_heard (link_pair (chain_link h (i + 1) (by omega))) (chain_sent h okA (i + 1) (by omega)).2
      have h3 := ((List.prefix_append _ _).trans h1).trans h2
      have h4 : (w.around (i + 1)).right.a.io.accepted <+: (w.link (i + 1)).a.io.accepted.map Spec.heard := h3
      rw [ih (by omega)] at h4
      exact List.prefix_nil.1 h4
  have okB : ∀ m ∈ (w.link n).b.io.accepted, Spec.Sayable m := by rw [hb]; simp
  have e : (w.link n).a.io.accepted = [] := by
    have := nil (n - 1) (by omega)
    rwa [show n - 1 + 1 = n by omega] at this
  have := C146_open h (Nat.le_refl n) ⟨okA, okB, by rw [e]; simp, by rw [hb]; simp, fun e => by omega, fun _ => ⟨hg, hr⟩,
    fun j e => by
      have hp := (chain_back h okB 1 j (by omega)).1
      rw [hb] at hp
      exact silent_writer (pair_inv (link_pair (chain_link h j (by omega)))).2.1 (List.prefix_nil.1 hp),
    fun e => by omega⟩
  exact ⟨this.2.2.2, this.1⟩

/-- Only a process that has not exited does something. -/
theorem move_there {k k' : Kind} {x y x' : Side} {ev : Ev} (h : Move k k' x y ev x') : x.gone = false := by
  cases h <;> assumption

/-- A process that has exited does nothing any more. -/
theorem gone_client {w w' : Chain.World} (h : Chain.Runs kc kl n w w') (hg : (w.link 0).a.gone = true) :
    (w'.link 0).a = (w.link 0).a := by
  induction h with
  | nil => rfl
  | @snoc w' x w'' _ hs hf ih =>
    rcases (chain_ends hs).1 with e | ⟨ev, hm⟩
    · exact e.trans ih
    · have g : (w'.link 0).a.gone = true := by rw [ih]; exact hg
      exact absurd (move_there hm) (by simp [g])

/-- The client and the server have exited at once. -/
theorem chain_left (kc : Kind) (kl : Nat → Kind) (n : Nat) : ∃ w, Chain.Reachable kc kl n w ∧ Chain.Quiet kc kl n w ∧
    (w.link 0).a.gone = true ∧ (w.link n).b.gone = true ∧ (w.link 0).a.io.accepted = [] ∧ (w.link n).b.io.accepted = [] := by
  have h1 : Chain.Reachable kc kl n _ := .step .start (.client (.exit rfl))
  have e : (({} : Chain.World).set 0 { ({} : Chain.World).link 0 with a := { (({} : Chain.World).link 0).a with gone := true } }).link n =
      (if n = 0 then ⟨⟨{}, true⟩, {}⟩ else {} : Link) := by
    by_cases h : n = 0 <;> simp [Chain.World.set, h]
  have eb : ((({} : Chain.World).set 0 { ({} : Chain.World).link 0 with a := { (({} : Chain.World).link 0).a with gone := true } }).link n).b
      = {} := by rw [e]; split <;> rfl
  have h2 := Chain.Reachable.step h1 (.server (.exit (by rw [eb])))
  obtain ⟨w, hr, hq⟩ := (C142_settles h2).2
  obtain ⟨⟨a1, a2, _⟩, ⟨b1, b2, _⟩, _⟩ := chain_kept_ends hr
  refine ⟨w, chain_runs hr h2, hq, a1.trans ?_, b1.trans ?_, a2.trans ?_, b2.trans ?_⟩
  · by_cases h : 0 = n
    · subst h; simp [Chain.World.set]
    · rw [set_other _ _ h, set_self]
  · rw [set_self]
  · by_cases h : 0 = n
    · subst h; simp [Chain.World.set]
    · rw [set_other _ _ h, set_self]
  · rw [set_self]; simp only [eb]

/-- Beside `C146_unwritten`: the client hands over exit and exits at once; when nothing can happen any more the server waits. -/
example : ∃ w, Chain.Reachable kc kl 2 w ∧ Chain.Quiet kc kl 2 w ∧ (w.link 0).a.gone = true ∧
    (w.link 0).a.io.accepted = [.notification .exit] ∧ (w.link 2).b.gone = false ∧ join (kl 2) (w.link 2).b.io = .waiting := by
  have h0 : Chain.Reachable kc kl 2 _ := .step .start (.client (.own rfl (.accept _ (.notification .exit) rfl rfl) (by simp) (by simp) (by simp)))
  have h1 := Chain.Reachable.step h0 (.client (.exit rfl))
  obtain ⟨w, hr, hq⟩ := (C142_settles h1).2
  obtain ⟨_, ⟨b1, b2, b3, _⟩, _⟩ := chain_kept_ends hr
  have e0 := gone_client hr rfl
  have e1 : (w.link 0).a.io.accepted = [.notification .exit] := by rw [e0]; rfl
  refine ⟨w, chain_runs hr h1, hq, by rw [e0]; rfl, e1, b1, ?_⟩
  exact (C146_unwritten (chain_runs hr h1) (by omega) (by rw [e1]; intro m hm; rw [List.mem_singleton.1 hm]; exact exit_sayable)
    (by rw [e0]; rfl) b2 b1 b3).1

/-- Beside `C146_orphans`: three relays after the client and the server have exited; nothing can happen any more and all
relays are there. -/
example : ∃ w, Chain.Reachable kc kl 3 w ∧ Chain.Quiet kc kl 3 w ∧ (w.link 0).a.gone = true ∧ (w.link 3).b.gone = true ∧
    ∀ i < 3, (w.link i).b.gone = false ∧ (w.link (i + 1)).a.gone = false := by
  obtain ⟨w, h, hq, g1, g2, a1, a2⟩ := chain_left kc kl 3
  exact ⟨w, h, hq, g1, g2, C146_orphans h (by omega) a1 a2⟩

/-- Beside `C146_between`: one relay after the client and the server have exited has exited. -/
example : ∃ w, Chain.Reachable kc kl 1 w ∧ Chain.Quiet kc kl 1 w ∧ (w.link 0).a.gone = true ∧ (w.link 1).b.gone = true ∧
    (w.link 0).b.gone = true ∧ (w.link 1).a.gone = true := by
  obtain ⟨w, h, hq, g1, g2, _, _⟩ := chain_left kc kl 1
  exact ⟨w, h, hq, g1, g2, C146_between h (by omega) g1 g2 hq⟩

/-- Beside `C146_open` and `C146_unseen`: two relays, the client exits at once; when nothing can happen any more the server
is there, has its receiver and waits. -/
example : ∃ w, Chain.Reachable kc kl 2 w ∧ Chain.Quiet kc kl 2 w ∧ (w.link 0).a.gone = true ∧
    (w.link 2).b.gone = false ∧ (w.link 2).b.io.rxAlive = true ∧ join (kl 2) (w.link 2).b.io = .waiting := by
  have h1 : Chain.Reachable kc kl 2 _ := .step .start (.client (.exit rfl))
  obtain ⟨w, hr, hq⟩ := (C142_settles h1).2
  obtain ⟨⟨a1, a2, _⟩, ⟨b1, b2, b3, _⟩, _⟩ := chain_kept_ends hr
  have e1 : (w.link 0).a.io.accepted = [] := a2
  have e2 : (w.link 2).b.io.accepted = [] := b2
  have e3 : (w.link 2).b.io.rxAlive = true := b3
  refine ⟨w, chain_runs hr h1, hq, a1, b1, e3, ?_⟩
  exact (C146_unseen (chain_runs hr h1) (by omega) (by rw [e1]; simp) (by rw [e1]; simp) e2 b1 e3).1

/-- Beside `C146_unseen_back`: two relays, the server exits at once; the client waits. -/
example : ∃ w, Chain.Reachable kc kl 2 w ∧ Chain.Quiet kc kl 2 w ∧ (w.link 2).b.gone = true ∧
    (w.link 0).a.gone = false ∧ (w.link 0).a.io.rxAlive = true ∧ join kc (w.link 0).a.io = .waiting := by
  have h1 : Chain.Reachable kc kl 2 _ := .step .start (.server (.exit rfl))
  obtain ⟨w, hr, hq⟩ := (C142_settles h1).2
  obtain ⟨⟨a1, a2, a3, _⟩, ⟨b1, b2, _⟩, _⟩ := chain_kept_ends hr
  have e1 : (w.link 0).a.io.accepted = [] := a2
  have e2 : (w.link 2).b.io.accepted = [] := b2
  have e3 : (w.link 0).a.io.rxAlive = true := a3
  refine ⟨w, chain_runs hr h1, hq, b1, a1, e3, ?_⟩
  exact (C146_unseen_back (chain_runs hr h1) (by omega) (by rw [e2]; simp) (by rw [e2]; simp) e1 a1 e3).1

end

section
attribute [local instance] Ext.sample FloatText.sample Dbg.sample

/-- Beside `C146_after`: the conversation beside C142_rest through two relays or more; then the client and the server exit.
When nothing can happen any more after that, all relays are there. -/
example (kc : Kind) (kl : Nat → Kind) (n : Nat) : ∃ w, Chain.Reachable kc kl (n + 2) w ∧ Chain.Quiet kc kl (n + 2) w ∧
    (w.link 0).a.gone = true ∧ (w.link (n + 2)).b.gone = true ∧
    (w.link 0).a.io.accepted = [.request (.shutdown (.i32 4))] ∧ (w.link (n + 2)).b.io.accepted = [sampleOut] ∧
    ∀ i < n + 2, (w.link i).b.gone = false ∧ (w.link (i + 1)).a.gone = false := by
  have h := chain_said kc kl (n + 2) [.request (.shutdown (.i32 4))] [sampleOut]
  have e : ((endsWorld (n + 2) (saidSide [.request (.shutdown (.i32 4))]) (saidSide [sampleOut])).link (n + 2)).b =
    saidSide [sampleOut] := by simp [endsWorld]
  have g := sampleRelay_passing
  have hp : Spec.Passing [.request (.shutdown (.i32 4))]
      ((endsWorld (n + 2) (saidSide [.request (.shutdown (.i32 4))]) (saidSide [sampleOut])).ends (n + 2)) := by
    refine ⟨⟨rfl, ?_⟩, ?_, ?_, g.before, ⟨[.notification .exit], rfl⟩, ?_, rfl, ?_⟩
    · simp only [Chain.World.ends, e]; exact g.gone.2
    · intro m hm
      have hm : m ∈ [Message.request (.shutdown (.i32 4))] := hm
      rw [List.mem_singleton.1 hm]
      exact g.okA _ (List.mem_cons_self ..)
    · simp only [Chain.World.ends, e]; exact g.okB
    · simp only [Chain.World.ends, e]; exact g.sentB
    · simp only [Chain.World.ends, e]; exact g.rxB
  obtain ⟨w, hr, hq⟩ := (C142_settles h).2
  obtain ⟨⟨a1, a2, _⟩, ⟨b1, b2, _⟩, _, _⟩ := chain_kept_ends hr
  have a3 : (w.link 0).a.io.accepted = [.request (.shutdown (.i32 4))] := a2
  have b3 : (w.link (n + 2)).b.io.accepted = [sampleOut] := by rw [b2, e]; rfl
  have b4 : (w.link (n + 2)).b.gone = false := by rw [b1, e]; rfl
  have hw := chain_runs hr h
  have l1 : Chain.Later kc kl (n + 2) w _ := .snoc (.nil _) (.client (.exit a1))
  have o : ∀ l, (w.set 0 l).link (n + 2) = w.link (n + 2) := fun l => set_other _ _ (by omega)
  have l2 := Chain.Later.snoc l1 (.server (.exit (by rw [o]; exact b4)))
  obtain ⟨u, hu, hq'⟩ := (C142_settles (later_reachable l2 hw)).2
  obtain ⟨⟨c1, c2, _⟩, ⟨d1, d2, _⟩, _, _⟩ := chain_kept_ends hu
  rw [set_other _ _ (show 0 ≠ n + 2 by omega), set_self] at c1 c2
  rw [set_self] at d1 d2
  simp only [o] at d2
  have l3 := later_append l2 (later_runs hu)
  exact ⟨u, later_reachable l3 hw, hq', c1, d1, c2.trans a3, d2.trans b3,
    (C146_after hw (chain_runs_passing hr hp) (by rw [a3]; simp) hq l3 c2 d2).1 (by omega)⟩

end
end Bsp
