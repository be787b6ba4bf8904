/-
C148: a relay between a process that has gone and one that goes on sending.
-/
import Verif.Props.OrphanNarrow

set_option linter.unusedSectionVars false

namespace Bsp
open Frame Transport Link
open Bridge (Hand Carry Who)
open Flow (Caps Asks Lets)

section
variable [LawfulExt] [FloatText]
variable {c : Nat → Caps} {kc : Kind} {kl : Nat → Kind} {n : Nat}

/-! ### A relay loses one message at most -/

theorem carry_short {ks kd : Kind} {s d s' d' : Side} {h h' : Hand} (hc : Carry ks kd s h d s' h' d')
    (hi : HandInv s h d) (hl : s.io.delivered.length ≤ d.io.accepted.length + 1) :
    s'.io.delivered.length ≤ d'.io.accepted.length + 1 := by
  cases hc with
  | recv hs =>
    cases hs with
    | deliver m _ _ =>
      have := hi.1.2 (by simp)
      simp only [Hand.held, List.append_nil] at this
      simp [this]
  | send hs => cases hs; simp only [List.length_append, List.length_singleton]; omega
  | _ => exact hl

theorem bridge_short {kc kl ks : Kind} {w : Bridge.World} (h : Bridge.Reachable kc kl ks w) :
    w.left.b.io.delivered.length ≤ w.right.a.io.accepted.length + 1 ∧
    w.right.a.io.delivered.length ≤ w.left.b.io.accepted.length + 1 := by
  induction h with
  | start => simp
  | step hr hs ih =>
    have bi := bridgeInv hr
    cases hs with
    | client h1 => exact ih
    | server h1 => exact ih
    | near h1 h2 h3 =>
      obtain ⟨_, e2, _, _⟩ := move_keeps h1 h2
      simp only [e2, move_idle h1 h2 h3]; exact ih
    | far h1 h2 h3 =>
      obtain ⟨_, e2, _, _⟩ := move_keeps h1 h2
      simp only [e2, move_idle h1 h2 h3]; exact ih
    | up ha h1 =>
      obtain ⟨⟨e1, _⟩, e3, _⟩ := carry_other h1
      refine ⟨carry_short h1 bi.up ih.1, ?_⟩
      simp only [e1, e3]; exact ih.2
    | down ha h1 =>
      obtain ⟨⟨e1, _⟩, e3, _⟩ := carry_other h1
      refine ⟨?_, carry_short h1 bi.down ih.2⟩
      simp only [e1, e3]; exact ih.1
    | finish => exact ih

/-- C148: of what a relay has received it has handed on everything but one message at most, in each direction, whatever has
happened. -/
theorem C148_one {w : Chain.World} (h : Chain.Reachable kc kl n w) {i : Nat} (hi : i < n) :
    ((w.link i).b.io.delivered.length ≤ (w.link (i + 1)).a.io.accepted.length + 1 ∧
      (w.link (i + 1)).a.io.accepted <+: (w.link i).b.io.delivered) ∧
    ((w.link (i + 1)).a.io.delivered.length ≤ (w.link i).b.io.accepted.length + 1 ∧
      (w.link i).b.io.accepted <+: (w.link (i + 1)).a.io.delivered) := by
  have hr := chain_around h i hi
  have bi := bridgeInv hr
  exact ⟨⟨(bridge_short hr).1, (List.prefix_append _ _).trans bi.up.1.1⟩,
    (bridge_short hr).2, (List.prefix_append _ _).trans bi.down.1.1⟩

/-! ### Writes that have failed -/

theorem move_failed {k k' : Kind} {x y x' : Side} {ev : Link.Ev} (h : Move k k' x y ev x')
    (hf : x'.io.writer = .failed ∨ x'.io.writer = .panicked) :
    (x.io.writer = .failed ∨ x.io.writer = .panicked) ∨ y.closed k' = true := by
  cases h with
  | own _ hs _ _ hn =>
    cases hs with
    | writeFails => exact absurd rfl hn
    | read r _ _ => cases r <;> exact .inl hf
    | _ => first | exact .inl hf | (rcases hf with hf | hf <;> cases hf)
  | arrive _ _ _ hs => cases hs; exact .inl hf
  | fin _ hc => exact .inr hc
  | reset _ hc => exact .inr hc
  | fails _ hc => exact .inr hc
  | exit => exact .inl hf

/-- A write fails only when the other side has closed the connection. -/
theorem link_failed {ka kb : Kind} {l : Link} (h : Link.Reachable ka kb l) :
    ((l.a.io.writer = .failed ∨ l.a.io.writer = .panicked) → l.b.closed kb = true) ∧
    ((l.b.io.writer = .failed ∨ l.b.io.writer = .panicked) → l.a.closed ka = true) := by
  induction h with
  | start => simp
  | step _ hs ih =>
    obtain ⟨gA, gB⟩ := link_grows hs
    cases hs with
    | left hm =>
      refine ⟨fun hf => ?_, fun hf => grows_closed gA (ih.2 hf)⟩
      rcases move_failed hm hf with hf | hf
      · exact ih.1 hf
      · exact hf
    | right hm =>
      refine ⟨fun hf => grows_closed gB (ih.1 hf), fun hf => ?_⟩
      rcases move_failed hm hf with hf | hf
      · exact ih.2 hf
      · exact hf

theorem written_out {k : Kind} {s : State} (hs : Transport.Reachable k s) (hw : s.writer = .idle ∨ s.writer = .done) :
    s.out = s.accepted.flatMap Frame.write := by
  have := writeInv hs
  rcases hw with hw | hw <;> simp only [WriteInv, hw] at this <;> first | exact this | exact this.1

/-! ### A relay that cannot hand on a message -/

/-- When nothing can happen any more, the reader of a side to which everything has been written has read it all, or has ended. -/
theorem all_read {k k' : Kind} {x y : Side} (hp : PairReachable k k' ⟨x.io, y.io⟩) (hg : x.gone = false)
    (ok : ∀ m ∈ y.io.accepted, Spec.Sayable m) (hw : y.io.writer = .idle ∨ y.io.writer = .done)
    (no : ∀ act x', Move k k' x y (.act act) x' → Link.Ev.app (.act act) = false → (∀ m, act ≠ .deliver m) →
      x'.io.out = x.io.out → (x'.io.arrived = x.io.arrived ∨ Asks x.io) → False)
    (nd : ∀ m io, Step k x.io (.deliver m) io → False) :
    x.io.reader.ended = true ∨ x.io.delivered = y.io.accepted.map Spec.heard := by
  obtain ⟨_, p2, _, p4⟩ := pair_inv hp
  cases e : x.io.reader with
  | reading =>
    right
    have stuck : ∀ r, ¬ Settled x.io r := fun r hs =>
      no _ _ (.own hg (.read _ r e hs) (by simp) (by simp) (by simp)) rfl (by simp)
        (by cases r <;> rfl) (by cases r <;> exact .inl rfl)
    have hin : x.io.inEnd = none := by
      cases hin : x.io.inEnd with
      | none => rfl
      | some b => exact absurd (by simp [Settled, hin]) (stuck (readMsg (⟨x.io.unread, b⟩ : Flat)))
    have arr : x.io.arrived = y.io.out := by
      refine Decidable.byContradiction fun hne => ?_
      obtain ⟨t, ht, he⟩ := prefix_rest p4 hne
      exact no _ _ (.arrive hg ht (by rw [he]; exact List.prefix_refl _) (.arrive _ t hin)) rfl (by simp) rfl (.inr ⟨e, stuck⟩)
    exact C56_heard_all (pair_swap hp) ok (arr.trans (written_out p2 hw)) e (by
      rintro ⟨s', hs'⟩
      cases hs' with | read r _ hs => exact stuck r hs)
  | sending m =>
    cases hx : x.io.rxAlive with
    | true => exact (nd _ _ (.deliver _ m e hx)).elim
    | false =>
      exact (no _ _ (.own hg (.undeliverable _ m e hx) (by simp) (by simp) (by simp)) rfl (by simp) rfl (.inl rfl)).elim
  | _ => exact .inl rfl

theorem carry_grows {ks kd : Kind} {s d s' d' : Side} {h h' : Hand} (hc : Carry ks kd s h d s' h' d') :
    Grows s s' ∧ Grows d d' := by
  cases hc with
  | recv hs => exact ⟨step_grows hs _, grows_refl _⟩
  | send hs => exact ⟨grows_refl _, step_grows hs _⟩
  | dropRx hx =>
    exact ⟨⟨id, List.prefix_refl _, List.prefix_refl _, by simp, id, fun _ => rfl, fun _ => rfl, fun _ => rfl,
      fun _ h => ⟨h, rfl⟩⟩, grows_refl _⟩
  | dropTx hx =>
    exact ⟨grows_refl _, ⟨id, List.prefix_refl _, List.prefix_refl _, id, by simp, fun _ => rfl, fun _ => rfl, fun _ => rfl,
      fun _ h => ⟨h, rfl⟩⟩⟩
  | _ => exact ⟨grows_refl _, grows_refl _⟩

/-- A thread of a relay ends because it receives no more, or because a write has failed. -/
theorem ended_why {kc kl ks : Kind} {w : Bridge.World} (h : Bridge.Reachable kc kl ks w) (he : w.down = .ended) :
    w.right.a.io.reader.ended = true ∨ w.left.b.io.writer = .failed ∨ w.left.b.io.writer = .panicked := by
  have keep : ∀ {s s' d d' : Side}, Grows s s' → Grows d d' →
      (s.io.reader.ended = true ∨ d.io.writer = .failed ∨ d.io.writer = .panicked) →
      s'.io.reader.ended = true ∨ d'.io.writer = .failed ∨ d'.io.writer = .panicked := by
    intro s s' d d' g1 g2 h
    rcases h with h | h | h
    · exact .inl (by rw [g1.reader h]; exact h)
    · exact .inr (.inl (by rw [g2.writer (by rw [h]; rfl), h]))
    · exact .inr (.inr (by rw [g2.writer (by rw [h]; rfl), h]))
  induction h with
  | start => cases he
  | @step w x w' hr hs ih =>
    have bi := bridgeInv hr
    have bl := (pair_inv (link_pair (bridge_left hr))).2.1
    cases hs with
    | client h1 => exact ih he
    | server h1 => exact ih he
    | near h1 h2 h3 => exact keep (grows_refl _) (move_grows h1) (ih he)
    | far h1 h2 h3 => exact keep (move_grows h1) (grows_refl _) (ih he)
    | up ha h1 =>
      obtain ⟨g1, g2⟩ := carry_grows h1
      exact keep g2 g1 (ih he)
    | @down b h' a ha h1 =>
      obtain ⟨g1, g2⟩ := carry_grows h1
      cases e : w.down with
      | ended => exact keep g1 g2 (ih e)
      | waiting =>
        rw [e] at h1
        have he : h' = .ended := he
        subst he
        cases h1 with | closed h2 => exact .inl h2
      | holding m =>
        rw [e] at h1
        have he : h' = .ended := he
        subst he
        cases h1 with
        | unsent h2 =>
          have := writeInv bl
          cases ew : w.left.b.io.writer with
          | done =>
            simp only [WriteInv, ew] at this
            have := bi.down.2 (.inr this.2)
            rw [e] at this; cases this
          | failed => exact .inr (.inl rfl)
          | panicked => exact .inr (.inr rfl)
          | _ => rw [ew] at h2; cases h2
    | finish => exact ih he

theorem told_core {w : Chain.World} (h : Chain.Reachable kc kl n w) {i : Nat} (hi : i < n) (hq : Narrow.Quiet c kc kl n w)
    (ha : (w.link i).a.gone = true) (wR : ∀ r, (w.link (i + 1)).a.io.writer ≠ .writing r)
    (ok : ∀ m ∈ (w.link (i + 1)).b.io.accepted, Spec.Sayable m)
    (hw : (w.link (i + 1)).a.io.reader.ended = true ∨
      (w.link (i + 1)).b.io.writer = .idle ∨ (w.link (i + 1)).b.io.writer = .done)
    (hl : (w.link i).b.io.accepted.length < (w.link (i + 1)).b.io.accepted.length) : (w.link i).b.gone = true := by
  have hr := chain_around h i hi
  have bi := bridgeInv hr
  cases g : (w.link i).b.gone with
  | true => rfl
  | false =>
    have g' : (w.link (i + 1)).a.gone = false := bi.gone.symm.trans g
    have aw : (w.around i).awake := ⟨g, g'⟩
    obtain ⟨noL, noR⟩ := relay_sides_still hi hq
    have wL := gone_writer g ha noL
    obtain ⟨t1, t2⟩ := relay_takes h hi hq g wL wR
    have rL := gone_reader (pair_inv (link_pair (bridge_left hr))).2.2.1 g ha noL t1
    have ends : (w.link (i + 1)).a.io.reader.ended = true → false = true := fun h1 => by
      rw [← g]; exact relay_ends h hi hq wL wR rL h1
    rcases hw with hw | hw
    · exact ends hw
    · rcases all_read (link_pair (bridge_right hr)) g' ok hw noR t2 with h1 | h1
      · exact ends h1
      · exfalso
        have h3 : (w.link (i + 1)).a.io.delivered.length = (w.link (i + 1)).b.io.accepted.length := by
          rw [show (w.link (i + 1)).a.io.delivered = _ from h1, List.length_map]; rfl
        obtain ⟨c1, c2⟩ := narrow_carry (hushed hq) hi aw
        obtain ⟨q1, q2⟩ := relay_hands h hi hq g wL wR
        have u1 : w.up i = .ended := by
          cases e : w.up i with
          | waiting => exact absurd (.closed rL) (c1 e)
          | holding m => exact absurd e (q1 m)
          | ended => rfl
        have d1 : w.down i = .ended := by
          cases e : w.down i with
          | waiting =>
            have h2 : (w.link (i + 1)).a.io.delivered = (w.link i).b.io.accepted ++ (w.down i).held :=
              bi.down.1.2 (by change w.down i ≠ _; rw [e]; simp)
            rw [h2, e] at h3
            simp only [Hand.held, List.append_nil] at h3
            omega
          | holding m => exact absurd e (q2 m)
          | ended => rfl
        have u2 : (w.link i).b.io.rxAlive = false := Bool.eq_false_iff.2 fun t => c1 u1 (.dropRx t)
        have u3 : (w.link (i + 1)).a.io.txAlive = false := Bool.eq_false_iff.2 fun t => c1 u1 (.dropTx t)
        have d2 : (w.link (i + 1)).a.io.rxAlive = false := Bool.eq_false_iff.2 fun t => c2 d1 (.dropRx t)
        have d3 : (w.link i).b.io.txAlive = false := Bool.eq_false_iff.2 fun t => c2 d1 (.dropTx t)
        rcases ended_why hr d1 with h4 | h4
        · cases ends h4
        · have h4 : (w.link i).b.io.writer = .failed ∨ (w.link i).b.io.writer = .panicked := h4
          have eL : (w.link i).b.io.writer.ended = true := by rcases h4 with h4 | h4 <;> rw [h4] <;> rfl
          have nk : join (kl i) (w.link i).b.io ≠ .ok := by
            intro hj
            have := (C58_ok_iff.1 hj).2
            rcases h4 with h4 | h4 <;> rw [h4] at this <;> cases this
          have := hq .relay _ ⟨.relay hi (.finish (w := w.around i) aw u1 d1 u2 d3 d2 u3 (join_returns ⟨rL, eL⟩)
            (fun hj => absurd hj nk)), fun k _ => put_lets ⟨.inl rfl, .inl rfl, .inl rfl, .inl rfl⟩
              ⟨.inl rfl, .inl rfl, .inl rfl, .inl rfl⟩ k⟩
          cases this

theorem told_core_back {w : Chain.World} (h : Chain.Reachable kc kl n w) {i : Nat} (hi : i < n) (hq : Narrow.Quiet c kc kl n w)
    (hb : (w.link (i + 1)).b.gone = true) (wL : ∀ r, (w.link i).b.io.writer ≠ .writing r)
    (ok : ∀ m ∈ (w.link i).a.io.accepted, Spec.Sayable m)
    (hw : (w.link i).b.io.reader.ended = true ∨ (w.link i).a.io.writer = .idle ∨ (w.link i).a.io.writer = .done)
    (hl : (w.link (i + 1)).a.io.accepted.length + 2 ≤ (w.link i).a.io.accepted.length) : (w.link i).b.gone = true := by
  have hr := chain_around h i hi
  have bi := bridgeInv hr
  cases g : (w.link i).b.gone with
  | true => rfl
  | false =>
    have g' : (w.link (i + 1)).a.gone = false := bi.gone.symm.trans g
    obtain ⟨noL, noR⟩ := relay_sides_still hi hq
    have wR := gone_writer g' hb noR
    obtain ⟨t1, t2⟩ := relay_takes h hi hq g wL wR
    rw [← g]
    refine relay_ends h hi hq wL wR ?_ (gone_reader (pair_inv (link_pair (bridge_right hr))).2.2.2 g' hb noR t2)
    rcases hw with hw | hw
    · exact hw
    · rcases all_read (pair_swap (link_pair (bridge_left hr))) g ok hw noL t1 with h1 | h1
      · exact h1
      · have h2 := (C148_one h hi).1.1
        have h3 : (w.link i).b.io.delivered.length = (w.link i).a.io.accepted.length := by
          rw [show (w.link i).b.io.delivered = _ from h1, List.length_map]; rfl
        omega

theorem quiet_narrow {w : Chain.World} (hq : Chain.Quiet kc kl n w) (c : Nat → Caps) : Narrow.Quiet c kc kl n w :=
  fun x w' h => hq x w' h.step

/-- No side that is there is writing, when nothing can happen any more and the buffers are without limit. -/
theorem still_writers {w : Chain.World} (hq : Chain.Quiet kc kl n w) {i : Nat} (hi : i ≤ n) :
    ((w.link i).a.gone = false → ∀ r, (w.link i).a.io.writer ≠ .writing r) ∧
    ((w.link i).b.gone = false → ∀ r, (w.link i).b.io.writer ≠ .writing r) := by
  have c : ∀ d, Hushed (fun _ => ⟨d, d⟩) kc kl n w := fun d => hushed (quiet_narrow hq _)
  constructor <;> intro hg r e
  · cases r with
    | nil => exact narrow_left (c 0) hi (.own hg (.written _ e) (by simp) (by simp) (by simp)) rfl (by simp) (.inl rfl) (.inl rfl)
    | cons x r =>
      refine narrow_left (c ((w.link i).a.io.out ++ [x]).length) hi (.own hg (.write _ [x] r e (by simp)) (by simp) (by simp)
        (by simp)) rfl (by simp) (.inr ?_) (.inl rfl)
      exact Nat.le_add_left _ _
  · cases r with
    | nil => exact narrow_right (c 0) hi (.own hg (.written _ e) (by simp) (by simp) (by simp)) rfl (by simp) (.inl rfl) (.inl rfl)
    | cons x r =>
      refine narrow_right (c ((w.link i).b.io.out ++ [x]).length) hi (.own hg (.write _ [x] r e (by simp)) (by simp) (by simp)
        (by simp)) rfl (by simp) (.inr ?_) (.inl rfl)
      exact Nat.le_add_left _ _

theorem closed_reads {k : Kind} {x : Side} (hg : x.gone = false) (hc : x.closed k = true) : x.io.reader.ended = true := by
  simp only [Side.closed, hg, Bool.false_or, Bool.and_eq_true] at hc
  exact hc.1.2

/-- C148: a relay whose left neighbour (the client, say) has gone exits, if the right one has sent at least one message that
the relay has not handed to its writer: when nothing can happen any more, it has. -/
theorem C148_told {w : Chain.World} (h : Chain.Reachable kc kl n w) {i : Nat} (hi : i < n) (ha : (w.link i).a.gone = true)
    (ok : ∀ m ∈ (w.link (i + 1)).b.io.accepted, Spec.Sayable m)
    (hl : (w.link i).b.io.accepted.length < (w.link (i + 1)).b.io.accepted.length) (hq : Chain.Quiet kc kl n w) :
    (w.link i).b.gone = true ∧ (w.link (i + 1)).a.gone = true := by
  have bi := bridgeInv (chain_around h i hi)
  suffices (w.link i).b.gone = true from ⟨this, bi.gone.symm.trans this⟩
  cases gB : (w.link (i + 1)).b.gone with
  | true => exact (C146_between h hi ha gB hq).1
  | false =>
    cases g : (w.link i).b.gone with
    | true => rfl
    | false =>
      have g' : (w.link (i + 1)).a.gone = false := bi.gone.symm.trans g
      rw [← g]
      refine told_core h hi (quiet_narrow hq fun _ => ⟨0, 0⟩) ha ((still_writers hq (by omega)).1 g') ok ?_ hl
      have hf := (link_failed (chain_link h (i + 1) (by omega))).2
      cases e : (w.link (i + 1)).b.io.writer with
      | idle => exact .inr (.inl rfl)
      | done => exact .inr (.inr rfl)
      | writing r => exact absurd e ((still_writers hq (by omega)).2 gB r)
      | failed => exact .inl (closed_reads g' (hf (.inl e)))
      | panicked => exact .inl (closed_reads g' (hf (.inr e)))

/-- C148: when the right neighbour (the server, say) has gone and the left one has sent, it takes two messages, since the relay
joins the threads of its first connection first. -/
theorem C148_told_back {w : Chain.World} (h : Chain.Reachable kc kl n w) {i : Nat} (hi : i < n)
    (hb : (w.link (i + 1)).b.gone = true) (ok : ∀ m ∈ (w.link i).a.io.accepted, Spec.Sayable m)
    (hl : (w.link (i + 1)).a.io.accepted.length + 2 ≤ (w.link i).a.io.accepted.length) (hq : Chain.Quiet kc kl n w) :
    (w.link i).b.gone = true ∧ (w.link (i + 1)).a.gone = true := by
  have bi := bridgeInv (chain_around h i hi)
  suffices (w.link i).b.gone = true from ⟨this, bi.gone.symm.trans this⟩
  cases gA : (w.link i).a.gone with
  | true => exact (C146_between h hi gA hb hq).1
  | false =>
    cases g : (w.link i).b.gone with
    | true => rfl
    | false =>
      rw [← g]
      refine told_core_back h hi (quiet_narrow hq fun _ => ⟨0, 0⟩) hb ((still_writers hq (by omega)).2 g) ok ?_ hl
      have hf := (link_failed (chain_link h i (by omega))).1
      cases e : (w.link i).a.io.writer with
      | idle => exact .inr (.inl rfl)
      | done => exact .inr (.inr rfl)
      | writing r => exact absurd e ((still_writers hq (by omega)).1 gA r)
      | failed => exact .inl (closed_reads g (hf (.inl e)))
      | panicked => exact .inl (closed_reads g (hf (.inr e)))

/-- C148: so the server is told in the end that the client has gone, if at least one of its messages has not been handed on by
the last relay when nothing can happen any more: its reader thread has ended. -/
theorem C148_server {j : Nat} {w : Chain.World} (h : Chain.Reachable kc kl (j + 1) w) (ha : (w.link j).a.gone = true)
    (ok : ∀ m ∈ (w.link (j + 1)).b.io.accepted, Spec.Sayable m) (hg : (w.link (j + 1)).b.gone = false)
    (hl : (w.link j).b.io.accepted.length < (w.link (j + 1)).b.io.accepted.length) (hq : Chain.Quiet kc kl (j + 1) w) :
    (w.link (j + 1)).b.io.reader.ended = true := by
  have g := (C148_told h (Nat.lt_succ_self j) ha ok hl hq).2
  have hn := quiet_narrow hq fun _ => ⟨0, 0⟩
  refine gone_reader (pair_inv (link_pair (chain_link h (j + 1) (Nat.le_refl _)))).2.2.1 hg g
    (fun act x' h1 h2 h3 h4 h5 => narrow_right (hushed hn) (Nat.le_refl _) h1 h2 h3 (.inl h4) h5) fun m io hs => ?_
  have := hq _ _ (.server (.own hg hs (by simp) (by simp) (by simp)))
  cases this

/-- C148: and as long as everything that the right neighbour has sent has been handed on, it does not exit, even if a write has failed, and that
neighbour goes on reading from it (provided that exit has not been sent on that connection). -/
theorem C148_stays {w : Chain.World} (h : Chain.Reachable kc kl n w) {i : Nat} (hi : i < n)
    (okA : ∀ m ∈ (w.link (i + 1)).a.io.accepted, Spec.Sayable m) (okB : ∀ m ∈ (w.link (i + 1)).b.io.accepted, Spec.Sayable m)
    (xA : Message.notification .exit ∉ (w.link (i + 1)).a.io.accepted)
    (xB : Message.notification .exit ∉ (w.link (i + 1)).b.io.accepted)
    (hb : (w.link (i + 1)).b.gone = false ∧ (w.link (i + 1)).b.io.rxAlive = true)
    (hl : (w.link (i + 1)).b.io.accepted.length ≤ (w.link i).b.io.accepted.length) :
    (w.link (i + 1)).a.gone = false ∧ (w.link (i + 1)).a.io.reader.ended = false ∧
    (w.link (i + 1)).b.io.reader.ended = false := by
  have key : ∀ {kc kl ks : Kind} {w : Bridge.World}, Bridge.Reachable kc kl ks w →
      (∀ m ∈ w.right.a.io.accepted, Spec.Sayable m) → (∀ m ∈ w.right.b.io.accepted, Spec.Sayable m) →
      Message.notification .exit ∉ w.right.a.io.accepted → Message.notification .exit ∉ w.right.b.io.accepted →
      w.right.b.gone = false → w.right.b.io.rxAlive = true →
      (w.down = .ended ∧ w.left.b.io.accepted.length < w.right.b.io.accepted.length) ∨
      (w.down ≠ .ended ∧ w.right.a.gone = false ∧ w.right.a.io.reader.ended = false) := by
    clear hl hb xA xB okA okB h
    intro kc kl ks w h
    induction h with
    | start => intros; exact .inr ⟨by simp, rfl, rfl⟩
    | @step w x w' hr hs ih =>
      intro okA okB xA xB gB rB
      have hr' := Bridge.Reachable.step hr hs
      have gr : Grows w.right.a w'.right.a ∧ Grows w.right.b w'.right.b := by
        rcases (bridge_links hs).2 with e | ⟨_, e⟩
        · rw [e]; exact ⟨grows_refl _, grows_refl _⟩
        · exact link_grows e
      have bi := bridgeInv hr
      have bi' := bridgeInv hr'
      have ih := ih (fun m hm => okA m (gr.1.accepted.subset hm)) (fun m hm => okB m (gr.2.accepted.subset hm))
        (fun hm => xA (gr.1.accepted.subset hm)) (fun hm => xB (gr.2.accepted.subset hm))
        (Bool.eq_false_iff.2 fun e => by rw [gr.2.gone e] at gB; cases gB) (gr.2.rx rB)
      have more : w.right.b.io.accepted.length ≤ w'.right.b.io.accepted.length := gr.2.accepted.length_le
      have opened : w'.right.a.gone = false → w'.down ≠ .ended → w'.right.a.io.reader.ended = false := by
        intro g hd
        have rA : w'.right.a.io.rxAlive = true := by
          cases rx : w'.right.a.io.rxAlive with
          | true => rfl
          | false => exact absurd (bi'.down.2 (.inl rx)) hd
        exact (link_open (bridge_right hr') okA okB xA xB g gB rA rB).1
      have same : w'.down = w.down → w'.left.b.io.accepted = w.left.b.io.accepted →
          (w.down ≠ .ended → w'.right.a.gone = w.right.a.gone) →
          (w'.down = .ended ∧ w'.left.b.io.accepted.length < w'.right.b.io.accepted.length) ∨
          (w'.down ≠ .ended ∧ w'.right.a.gone = false ∧ w'.right.a.io.reader.ended = false) := by
        intro e1 e2 e3
        rcases ih with ⟨h1, h2⟩ | ⟨h1, h2, h3⟩
        · exact .inl ⟨e1.trans h1, by rw [e2]; omega⟩
        · have g := (e3 h1).trans h2
          exact .inr ⟨by rw [e1]; exact h1, g, opened g (by rw [e1]; exact h1)⟩
      cases hs with
      | client h1 => exact same rfl rfl fun _ => rfl
      | server h1 => exact same rfl rfl fun _ => rfl
      | near h1 h2 h3 => exact same rfl (move_keeps h1 h2).2.1 fun _ => rfl
      | far h1 h2 h3 => exact same rfl rfl fun _ => (move_keeps h1 h2).1
      | up ha h1 => exact same rfl (carry_other h1).1.1 fun _ => (carry_gone h1).2
      | finish ha _ hd => exact same rfl rfl fun h => absurd hd h
      | @down b h' a ha h1 =>
        have g := (carry_gone h1).1.trans ha.2
        by_cases hd : h' = .ended
        · subst hd
          refine .inl ⟨rfl, ?_⟩
          generalize e : w.down = d at h1
          cases h1 with
          | closed h2 =>
            rcases ih with ⟨h3, _⟩ | ⟨_, _, h3⟩
            · rw [e] at h3; cases h3
            · rw [h2] at h3; cases h3
          | unsent h2 =>
            have e1 := bi.down.1.2 (by rw [e]; simp)
            have e2 := (C56_heard (pair_swap (link_pair (bridge_right hr))) okB).length_le
            simp only [e1, e, Hand.held, List.length_append, List.length_singleton, List.length_map] at e2
            exact e2
          | dropRx h2 =>
            rcases ih with ⟨_, h3⟩ | ⟨h3, _⟩
            · exact h3
            · exact absurd e h3
          | dropTx h2 =>
            rcases ih with ⟨_, h3⟩ | ⟨h3, _⟩
            · exact h3
            · exact absurd e h3
        · exact .inr ⟨hd, g, opened g hd⟩
  have bi := bridgeInv (chain_around h i hi)
  rcases key (chain_around h i hi) okA okB xA xB hb.1 hb.2 with ⟨_, h1⟩ | ⟨hd, h1, h2⟩
  · have h1 : (w.link i).b.io.accepted.length < (w.link (i + 1)).b.io.accepted.length := h1
    omega
  · have rA : (w.link (i + 1)).a.io.rxAlive = true := by
      cases rx : (w.link (i + 1)).a.io.rxAlive with
      | true => rfl
      | false => exact absurd (bi.down.2 (.inl rx)) hd
    exact ⟨h1, h2, (link_open (chain_link h (i + 1) (by omega)) okA okB xA xB h1 hb.1 rA hb.2).2⟩

/-- C148: so this decides it. -/
theorem C148_iff {w : Chain.World} (h : Chain.Reachable kc kl n w) {i : Nat} (hi : i < n) (ha : (w.link i).a.gone = true)
    (okA : ∀ m ∈ (w.link (i + 1)).a.io.accepted, Spec.Sayable m) (okB : ∀ m ∈ (w.link (i + 1)).b.io.accepted, Spec.Sayable m)
    (xA : Message.notification .exit ∉ (w.link (i + 1)).a.io.accepted)
    (xB : Message.notification .exit ∉ (w.link (i + 1)).b.io.accepted)
    (hb : (w.link (i + 1)).b.gone = false ∧ (w.link (i + 1)).b.io.rxAlive = true) (hq : Chain.Quiet kc kl n w) :
    (w.link (i + 1)).a.gone = true ↔ (w.link i).b.io.accepted.length < (w.link (i + 1)).b.io.accepted.length := by
  refine ⟨fun g => Nat.lt_of_not_le fun hl => ?_, fun hl => (C148_told h hi ha okB hl hq).2⟩
  have := (C148_stays h hi okA okB xA xB hb hl).1
  rw [g] at this; cases this

/-- The first connection of a relay as if its receiver had never been dropped. Proof helper for
bsp-server/src/transporter.rs:47-80. -/
def keptFirst (l : Link) : Link := ⟨l.a, keptSide l.b⟩

theorem join_read {k : Kind} {s : State} (h : join k s ≠ .waiting) : s.reader.ended = true := by
  cases e : s.reader with
  | reading => exact absurd (by unfold join; rw [e]) h
  | sending m => exact absurd (by unfold join; rw [e]) h
  | _ => rfl

theorem stays_back {kc kl ks : Kind} {w : Bridge.World} (h : Bridge.Reachable kc kl ks w) :
    (∀ m ∈ w.left.a.io.accepted, Spec.Sayable m) → (∀ m ∈ w.left.b.io.accepted, Spec.Sayable m) →
    Message.notification .exit ∉ w.left.a.io.accepted → Message.notification .exit ∉ w.left.b.io.accepted →
    w.left.a.gone = false → w.left.a.io.rxAlive = true →
    (w.up = .ended ∧ w.right.a.io.accepted.length + 2 ≤ w.left.a.io.accepted.length) ∨
    (w.left.b.gone = false ∧ Link.Reachable kc kl (keptFirst w.left) ∧ w.left.b.io.reader.ended = false ∧
      (w.up = .ended → w.right.a.io.accepted.length + 1 ≤ w.left.b.io.delivered.length)) := by
  induction h with
  | start => intros; exact .inr ⟨rfl, .start, rfl, by simp⟩
  | @step w x w' hr hs ih =>
    intro okA okB xA xB gA rA
    have hr' := Bridge.Reachable.step hr hs
    have gr : Grows w.left.a w'.left.a ∧ Grows w.left.b w'.left.b := by
      rcases (bridge_links hs).1 with e | ⟨_, e⟩
      · rw [e]; exact ⟨grows_refl _, grows_refl _⟩
      · exact link_grows e
    have bi := bridgeInv hr
    have ih := ih (fun m hm => okA m (gr.1.accepted.subset hm)) (fun m hm => okB m (gr.2.accepted.subset hm))
      (fun hm => xA (gr.1.accepted.subset hm)) (fun hm => xB (gr.2.accepted.subset hm))
      (Bool.eq_false_iff.2 fun e => by rw [gr.1.gone e] at gA; cases gA) (gr.1.rx rA)
    have more : w.left.a.io.accepted.length ≤ w'.left.a.io.accepted.length := gr.1.accepted.length_le
    -- the relay's reader, in the state afterwards
    have opened : Link.Reachable kc kl (keptFirst w'.left) → w'.left.b.io.reader.ended = false := fun hk =>
      (link_open hk okA okB xA xB gA rfl rA rfl).2
    rcases ih with ⟨h1, h2⟩ | ⟨g, hk, ho, hd⟩
    · left
      cases hs with
      | client _ => exact ⟨h1, Nat.le_trans h2 more⟩
      | server _ => exact ⟨h1, h2⟩
      | near _ _ _ => exact ⟨h1, h2⟩
      | far h3 h4 _ => exact ⟨h1, by simp only [(move_keeps h3 h4).2.1]; exact h2⟩
      | down _ h3 => exact ⟨h1, by simp only [(carry_other h3).1.1]; exact h2⟩
      | finish => exact ⟨h1, h2⟩
      | up _ h3 =>
        rw [h1] at h3
        cases h3 with
        | dropRx _ => exact ⟨rfl, h2⟩
        | dropTx _ => exact ⟨rfl, h2⟩
    · have cl : (keptSide w.left.b).closed kl = w.left.b.closed kl := by simp [keptSide, Side.closed, g, ho]
      cases hs with
      | @client ev a h1 =>
        have hk' : Link.Reachable kc kl (keptFirst { w.left with a }) :=
          .step hk (.left (l := keptFirst w.left) (move_other h1 rfl rfl rfl cl))
        exact .inr ⟨g, hk', opened hk', hd⟩
      | server _ => exact .inr ⟨g, hk, ho, hd⟩
      | far h3 h4 _ => exact .inr ⟨g, hk, ho, by simp only [(move_keeps h3 h4).2.1]; exact hd⟩
      | finish _ _ _ _ _ _ _ hj =>
        rw [join_read hj] at ho; cases ho
      | @near act b h1 h2 h3 =>
        by_cases hu : act = .undeliverable
        · subst hu
          left
          cases h1 with
          | own _ hst _ _ _ =>
            cases hst with
            | undeliverable m e1 e2 =>
              have up := bi.up.2 (.inl e2)
              refine ⟨up, ?_⟩
              have hk' := Link.Reachable.step hk (.right (l := keptFirst w.left)
                (.own rfl (.deliver { w.left.b.io with rxAlive := true } m e1 rfl) (by simp) (by simp) (by simp)))
              have e3 := (C56_heard (link_pair hk') okA).length_le
              simp only [keptFirst, List.length_append, List.length_singleton, List.length_map] at e3
              have := hd up
              exact Nat.le_trans (Nat.succ_le_succ this) e3
        · have hx : act ≠ .dropRx := by rintro rfl; cases h2
          have hk' : Link.Reachable kc kl (keptFirst { w.left with b }) :=
            .step hk (.right (l := keptFirst w.left) (move_kept h1 hx hu))
          exact .inr ⟨(move_keeps h1 h2).1.trans g, hk', opened hk', by simp only [move_idle h1 h2 h3]; exact hd⟩
      | @down b h' a ha h1 =>
        have hd' : w.up = .ended → a.io.accepted.length + 1 ≤ b.io.delivered.length := by
          rw [(carry_other h1).1.1, (carry_other h1).2.1]; exact hd
        have hk' : Link.Reachable kc kl (keptFirst { w.left with b }) := by
          generalize w.down = d at h1
          cases h1 with
          | send hst => exact .step hk (.right (l := keptFirst w.left) (move_kept (.own g hst (by simp) (by simp) (by simp)) (by simp) (by simp)))
          | dropTx _ => exact .step hk (.right (l := keptFirst w.left) (move_kept (.own g (.dropTx _) (by simp) (by simp) (by simp)) (by simp) (by simp)))
          | _ => exact hk
        exact .inr ⟨(carry_gone h1).2.trans g, hk', opened hk', hd'⟩
      | @up b h' a ha h1 =>
        have g' := (carry_gone h1).1.trans g
        have hk' : Link.Reachable kc kl (keptFirst { w.left with b }) := by
          generalize w.up = d at h1
          cases h1 with
          | recv hst => exact .step hk (.right (l := keptFirst w.left) (move_kept (.own g hst (by simp) (by simp) (by simp)) (by simp) (by simp)))
          | _ => exact hk
        refine .inr ⟨g', hk', opened hk', fun he => ?_⟩
        have he : h' = .ended := he
        subst he
        generalize e : w.up = d at h1
        cases h1 with
        | closed h2 => rw [h2] at ho; cases ho
        | unsent h2 =>
          have e1 := bi.up.1.2 (by rw [e]; simp)
          simp only [e1, e, Hand.held, List.length_append, List.length_singleton]
          exact Nat.le_refl _
        | dropRx h2 => exact hd e
        | dropTx h2 => exact hd e

/-- C148: the other way round the relay stays as long as all that the left neighbour has sent but one message has been handed on, and the
left neighbour goes on reading from it. -/
theorem C148_stays_back {w : Chain.World} (h : Chain.Reachable kc kl n w) {i : Nat} (hi : i < n)
    (okA : ∀ m ∈ (w.link i).a.io.accepted, Spec.Sayable m) (okB : ∀ m ∈ (w.link i).b.io.accepted, Spec.Sayable m)
    (xA : Message.notification .exit ∉ (w.link i).a.io.accepted) (xB : Message.notification .exit ∉ (w.link i).b.io.accepted)
    (ha : (w.link i).a.gone = false ∧ (w.link i).a.io.rxAlive = true)
    (hl : (w.link i).a.io.accepted.length ≤ (w.link (i + 1)).a.io.accepted.length + 1) :
    (w.link i).b.gone = false ∧ (w.link i).b.io.reader.ended = false ∧ (w.link i).a.io.reader.ended = false := by
  rcases stays_back (chain_around h i hi) okA okB xA xB ha.1 ha.2 with ⟨_, h1⟩ | ⟨h1, hk, h2, _⟩
  · have h1 : (w.link (i + 1)).a.io.accepted.length + 2 ≤ (w.link i).a.io.accepted.length := h1
    omega
  · exact ⟨h1, h2, (link_open hk okA okB xA xB ha.1 rfl ha.2 rfl).1⟩

/-- C148: so this decides it when the right neighbour has gone. -/
theorem C148_iff_back {w : Chain.World} (h : Chain.Reachable kc kl n w) {i : Nat} (hi : i < n)
    (hb : (w.link (i + 1)).b.gone = true) (okA : ∀ m ∈ (w.link i).a.io.accepted, Spec.Sayable m)
    (okB : ∀ m ∈ (w.link i).b.io.accepted, Spec.Sayable m) (xA : Message.notification .exit ∉ (w.link i).a.io.accepted)
    (xB : Message.notification .exit ∉ (w.link i).b.io.accepted)
    (ha : (w.link i).a.gone = false ∧ (w.link i).a.io.rxAlive = true) (hq : Chain.Quiet kc kl n w) :
    (w.link i).b.gone = true ↔ (w.link (i + 1)).a.io.accepted.length + 2 ≤ (w.link i).a.io.accepted.length := by
  refine ⟨fun g => Nat.lt_of_not_le fun hl => ?_, fun hl => (C148_told_back h hi hb okA hl hq).1⟩
  have := (C148_stays_back h hi okA okB xA xB ha hl).1
  rw [g] at this; cases this

/-! ### Finite buffers -/

theorem move_end {k k' : Kind} {x y x' : Side} {ev : Link.Ev} (h : Move k k' x y ev x') (hf : x'.io.inEnd ≠ none) :
    x.io.inEnd ≠ none ∨ y.closed k' = true := by
  cases h with
  | own _ hs _ hn _ =>
    cases hs with
    | hangUp b _ => exact absurd rfl (hn b)
    | read r _ _ => cases r <;> exact .inl hf
    | _ => exact .inl hf
  | arrive _ _ _ hs => cases hs; exact .inl hf
  | fin _ hc => exact .inr hc
  | reset _ hc => exact .inr hc
  | fails _ hc => exact .inr hc
  | exit => exact .inl hf

/-- The input ends only when the other side has closed the connection. -/
theorem link_end {ka kb : Kind} {l : Link} (h : Link.Reachable ka kb l) :
    (l.a.io.inEnd ≠ none → l.b.closed kb = true) ∧ (l.b.io.inEnd ≠ none → l.a.closed ka = true) := by
  induction h with
  | start => simp
  | step _ hs ih =>
    obtain ⟨gA, gB⟩ := link_grows hs
    cases hs with
    | left hm =>
      refine ⟨fun hf => ?_, fun hf => grows_closed gA (ih.2 hf)⟩
      rcases move_end hm hf with hf | hf
      · exact ih.1 hf
      · exact hf
    | right hm =>
      refine ⟨fun hf => grows_closed gB (ih.1 hf), fun hf => ?_⟩
      rcases move_end hm hf with hf | hf
      · exact ih.2 hf
      · exact hf

/-- When nothing can happen any more, a reader that waits for input has taken everything from the buffer, or its input has
ended. -/
theorem drained_by {k k' : Kind} {x y : Side} (hp : x.io.arrived <+: y.io.out) (hg : x.gone = false) (e : x.io.reader = .reading)
    (no : ∀ act x', Move k k' x y (.act act) x' → Link.Ev.app (.act act) = false → (∀ m, act ≠ .deliver m) →
      x'.io.out = x.io.out → (x'.io.arrived = x.io.arrived ∨ Asks x.io) → False) : x.io.arrived = y.io.out := by
  have stuck : ∀ r, ¬ Settled x.io r := fun r hs =>
    no _ _ (.own hg (.read _ r e hs) (by simp) (by simp) (by simp)) rfl (by simp)
      (by cases r <;> rfl) (by cases r <;> exact .inl rfl)
  have hin : x.io.inEnd = none := by
    cases hin : x.io.inEnd with
    | none => rfl
    | some b => exact absurd (by simp [Settled, hin]) (stuck (readMsg (⟨x.io.unread, b⟩ : Flat)))
  refine Decidable.byContradiction fun hne => ?_
  obtain ⟨t, ht, he⟩ := prefix_rest hp hne
  exact no _ _ (.arrive hg ht (by rw [he]; exact List.prefix_refl _) (.arrive _ t hin)) rfl (by simp) rfl (.inr ⟨e, stuck⟩)

/-- With room for a byte the thread that writes to a reader that has taken everything is not in the middle of a message. -/
theorem room_right {w : Chain.World} (hq : Narrow.Quiet c kc kl n w) {i : Nat} (hi : i ≤ n) (hc : 1 ≤ (c i).toRight)
    (hg : (w.link i).a.gone = false) (he : (w.link i).b.io.arrived = (w.link i).a.io.out) (r : Bytes) :
    (w.link i).a.io.writer ≠ .writing r := by
  intro e
  cases r with
  | nil => exact narrow_left (hushed hq) hi (.own hg (.written _ e) (by simp) (by simp) (by simp)) rfl (by simp) (.inl rfl) (.inl rfl)
  | cons x r =>
    refine narrow_left (hushed hq) hi (.own hg (.write _ [x] r e (by simp)) (by simp) (by simp) (by simp)) rfl (by simp)
      (.inr ?_) (.inl rfl)
    rw [he]; simp only [List.length_append, List.length_singleton]; omega

theorem room_left {w : Chain.World} (hq : Narrow.Quiet c kc kl n w) {i : Nat} (hi : i ≤ n) (hc : 1 ≤ (c i).toLeft)
    (hg : (w.link i).b.gone = false) (he : (w.link i).a.io.arrived = (w.link i).b.io.out) (r : Bytes) :
    (w.link i).b.io.writer ≠ .writing r := by
  intro e
  cases r with
  | nil => exact narrow_right (hushed hq) hi (.own hg (.written _ e) (by simp) (by simp) (by simp)) rfl (by simp) (.inl rfl) (.inl rfl)
  | cons x r =>
    refine narrow_right (hushed hq) hi (.own hg (.write _ [x] r e (by simp)) (by simp) (by simp) (by simp)) rfl (by simp)
      (.inr ?_) (.inl rfl)
    rw [he]; simp only [List.length_append, List.length_singleton]; omega

/-- C148: with finite buffers, with room for a byte between the last relay and the server and of whatever size elsewhere, the last
relay exits, too, if its left neighbour has gone and a message of the server has not been handed on. -/
theorem C148_told_narrow {j : Nat} {w : Chain.World} (h : Chain.Reachable kc kl (j + 1) w)
    (hc : 1 ≤ (c (j + 1)).toRight ∧ 1 ≤ (c (j + 1)).toLeft) (ha : (w.link j).a.gone = true)
    (okA : ∀ m ∈ (w.link (j + 1)).a.io.accepted, Spec.Sayable m) (okB : ∀ m ∈ (w.link (j + 1)).b.io.accepted, Spec.Sayable m)
    (xA : Message.notification .exit ∉ (w.link (j + 1)).a.io.accepted)
    (hb : (w.link (j + 1)).b.gone = false ∧ (w.link (j + 1)).b.io.rxAlive = true)
    (hl : (w.link j).b.io.accepted.length < (w.link (j + 1)).b.io.accepted.length) (hq : Narrow.Quiet c kc kl (j + 1) w) :
    (w.link j).b.gone = true ∧ (w.link (j + 1)).a.gone = true := by
  have hj : j < j + 1 := Nat.lt_succ_self j
  have bi := bridgeInv (chain_around h j hj)
  suffices (w.link j).b.gone = true from ⟨this, bi.gone.symm.trans this⟩
  cases g : (w.link j).b.gone with
  | true => rfl
  | false =>
    have g' : (w.link (j + 1)).a.gone = false := bi.gone.symm.trans g
    have hk := chain_link h (j + 1) (Nat.le_refl _)
    obtain ⟨_, _, p3, p4⟩ := pair_inv (link_pair hk)
    obtain ⟨noL, noR⟩ := relay_sides_still hj hq
    have noS : ∀ act x', Move (kl (j + 1)) .socket (w.link (j + 1)).b (w.link (j + 1)).a (.act act) x' →
        Link.Ev.app (.act act) = false → (∀ m, act ≠ .deliver m) → x'.io.out = (w.link (j + 1)).b.io.out →
        (x'.io.arrived = (w.link (j + 1)).b.io.arrived ∨ Asks (w.link (j + 1)).b.io) → False :=
      fun act x' h1 h2 h3 h4 h5 => narrow_right (hushed hq) (Nat.le_refl _) h1 h2 h3 (.inl h4) h5
    have wL := gone_writer g ha noL
    have wR : ∀ r, (w.link (j + 1)).a.io.writer ≠ .writing r := by
      intro r e
      have hin : (w.link (j + 1)).b.io.inEnd = none := by
        refine Decidable.byContradiction fun hne => ?_
        have := (link_end hk).2 hne
        simp [Side.closed, g', e, Writer.ended] at this
      have ho := open_reader (link_pair hk) okA xA hin hb.2
      cases er : (w.link (j + 1)).b.io.reader with
      | reading => exact room_right hq (Nat.le_refl _) hc.1 g' (drained_by p3 hb.1 er noS) r e
      | sending m =>
        have := hq _ _ (narrow_server (.own hb.1 (.deliver _ m er hb.2) (by simp) (by simp) (by simp)) rfl rfl)
        cases this
      | _ => rw [er] at ho; cases ho
    rw [← g]
    refine told_core h hj hq ha wR okB ?_ hl
    have hf := (link_failed hk).2
    cases e : (w.link (j + 1)).b.io.writer with
    | idle => exact .inr (.inl rfl)
    | done => exact .inr (.inr rfl)
    | failed => exact .inl (closed_reads g' (hf (.inl e)))
    | panicked => exact .inl (closed_reads g' (hf (.inr e)))
    | writing r =>
      left
      cases er : (w.link (j + 1)).a.io.reader with
      | reading => exact absurd e (room_left hq (Nat.le_refl _) hc.2 hb.1 (drained_by p4 g' er noR) r)
      | sending m =>
        cases hx : (w.link (j + 1)).a.io.rxAlive with
        | true => exact ((relay_takes h hj hq g wL wR).2 _ _ (.deliver _ m er hx)).elim
        | false =>
          exact (noR _ _ (.own g' (.undeliverable _ m er hx) (by simp) (by simp) (by simp)) rfl (by simp) rfl (.inl rfl)).elim
      | _ => rfl

/-- C148: and so does the first relay, if its right neighbour has gone and two messages of the client have not been handed on. -/
theorem C148_told_back_narrow {w : Chain.World} (h : Chain.Reachable kc kl (n + 1) w)
    (hc : 1 ≤ (c 0).toRight ∧ 1 ≤ (c 0).toLeft) (hb : (w.link 1).b.gone = true)
    (okA : ∀ m ∈ (w.link 0).a.io.accepted, Spec.Sayable m) (okB : ∀ m ∈ (w.link 0).b.io.accepted, Spec.Sayable m)
    (xB : Message.notification .exit ∉ (w.link 0).b.io.accepted)
    (ha : (w.link 0).a.gone = false ∧ (w.link 0).a.io.rxAlive = true)
    (hl : (w.link 1).a.io.accepted.length + 2 ≤ (w.link 0).a.io.accepted.length) (hq : Narrow.Quiet c kc kl (n + 1) w) :
    (w.link 0).b.gone = true ∧ (w.link 1).a.gone = true := by
  have hj : 0 < n + 1 := Nat.succ_pos n
  have bi := bridgeInv (chain_around h 0 hj)
  suffices (w.link 0).b.gone = true from ⟨this, bi.gone.symm.trans this⟩
  cases g : (w.link 0).b.gone with
  | true => rfl
  | false =>
    have g' : (w.link (0 + 1)).a.gone = false := bi.gone.symm.trans g
    have hk := chain_link h 0 (Nat.zero_le _)
    obtain ⟨_, _, p3, p4⟩ := pair_inv (link_pair hk)
    obtain ⟨noL, noR⟩ := relay_sides_still hj hq
    have noS : ∀ act x', Move kc (kl 0) (w.link 0).a (w.link 0).b (.act act) x' →
        Link.Ev.app (.act act) = false → (∀ m, act ≠ .deliver m) → x'.io.out = (w.link 0).a.io.out →
        (x'.io.arrived = (w.link 0).a.io.arrived ∨ Asks (w.link 0).a.io) → False :=
      fun act x' h1 h2 h3 h4 h5 => narrow_left (hushed hq) (Nat.zero_le _) h1 h2 (fun _ => h3) (.inl h4) h5
    have wR := gone_writer g' hb noR
    have wL : ∀ r, (w.link 0).b.io.writer ≠ .writing r := by
      intro r e
      have hin : (w.link 0).a.io.inEnd = none := by
        refine Decidable.byContradiction fun hne => ?_
        have := (link_end hk).1 hne
        simp [Side.closed, g, e, Writer.ended] at this
      have ho := open_reader (pair_swap (link_pair hk)) okB xB hin ha.2
      cases er : (w.link 0).a.io.reader with
      | reading => exact room_left hq (Nat.zero_le _) hc.2 g (drained_by p4 ha.1 er noS) r e
      | sending m =>
        have := hq _ _ (narrow_client (.own ha.1 (.deliver _ m er ha.2) (by simp) (by simp) (by simp)) rfl rfl)
        cases this
      | _ => rw [er] at ho; cases ho
    rw [← g]
    refine told_core_back h hj hq hb wL okA ?_ hl
    have hf := (link_failed hk).1
    cases e : (w.link 0).a.io.writer with
    | idle => exact .inr (.inl rfl)
    | done => exact .inr (.inr rfl)
    | failed => exact .inl (closed_reads g (hf (.inl e)))
    | panicked => exact .inl (closed_reads g (hf (.inr e)))
    | writing r =>
      left
      cases er : (w.link 0).b.io.reader with
      | reading => exact absurd e (room_right hq (Nat.zero_le _) hc.1 ha.1 (drained_by p3 g er noL) r)
      | sending m =>
        cases hx : (w.link 0).b.io.rxAlive with
        | true => exact ((relay_takes h hj hq g wL wR).1 _ _ (.deliver _ m er hx)).elim
        | false =>
          exact (noL _ _ (.own g (.undeliverable _ m er hx) (by simp) (by simp) (by simp)) rfl (by simp) rfl (.inl rfl)).elim
      | _ => rfl

/-- C148: so this decides it with finite buffers, too. -/
theorem C148_iff_narrow {j : Nat} {w : Chain.World} (h : Chain.Reachable kc kl (j + 1) w)
    (hc : 1 ≤ (c (j + 1)).toRight ∧ 1 ≤ (c (j + 1)).toLeft) (ha : (w.link j).a.gone = true)
    (okA : ∀ m ∈ (w.link (j + 1)).a.io.accepted, Spec.Sayable m) (okB : ∀ m ∈ (w.link (j + 1)).b.io.accepted, Spec.Sayable m)
    (xA : Message.notification .exit ∉ (w.link (j + 1)).a.io.accepted)
    (xB : Message.notification .exit ∉ (w.link (j + 1)).b.io.accepted)
    (hb : (w.link (j + 1)).b.gone = false ∧ (w.link (j + 1)).b.io.rxAlive = true) (hq : Narrow.Quiet c kc kl (j + 1) w) :
    (w.link (j + 1)).a.gone = true ↔ (w.link j).b.io.accepted.length < (w.link (j + 1)).b.io.accepted.length := by
  refine ⟨fun g => Nat.lt_of_not_le fun hl => ?_, fun hl => (C148_told_narrow h hc ha okA okB xA hb hl hq).2⟩
  have := (C148_stays h (Nat.lt_succ_self j) okA okB xA xB hb hl).1
  rw [g] at this; cases this

/-- C148: and on the side of the client. -/
theorem C148_iff_back_narrow {w : Chain.World} (h : Chain.Reachable kc kl (n + 1) w)
    (hc : 1 ≤ (c 0).toRight ∧ 1 ≤ (c 0).toLeft) (hb : (w.link 1).b.gone = true)
    (okA : ∀ m ∈ (w.link 0).a.io.accepted, Spec.Sayable m) (okB : ∀ m ∈ (w.link 0).b.io.accepted, Spec.Sayable m)
    (xA : Message.notification .exit ∉ (w.link 0).a.io.accepted) (xB : Message.notification .exit ∉ (w.link 0).b.io.accepted)
    (ha : (w.link 0).a.gone = false ∧ (w.link 0).a.io.rxAlive = true) (hq : Narrow.Quiet c kc kl (n + 1) w) :
    (w.link 0).b.gone = true ↔ (w.link 1).a.io.accepted.length + 2 ≤ (w.link 0).a.io.accepted.length := by
  refine ⟨fun g => Nat.lt_of_not_le fun hl => ?_, fun hl => (C148_told_back_narrow h hc hb okA okB xB ha hl hq).1⟩
  have := (C148_stays_back h (Nat.succ_pos n) okA okB xA xB ha hl).1
  rw [g] at this; cases this

/-! ### Such a run -/

theorem rest_from {w : Chain.World} (h : Chain.Reachable kc kl n w) (c : Nat → Caps) :
    ∃ xs w', Narrow.Steps c kc kl n w xs w' ∧ (∀ x ∈ xs, x.free = false) ∧ Narrow.Quiet c kc kl n w' := by
  suffices ∀ g w' xs, hopWork n w' = g → Narrow.Steps c kc kl n w xs w' → (∀ x ∈ xs, x.free = false) →
      ∃ xs w', Narrow.Steps c kc kl n w xs w' ∧ (∀ x ∈ xs, x.free = false) ∧ Narrow.Quiet c kc kl n w' from
    this _ w [] rfl (.nil w) (by simp)
  intro g
  induction g using (sooner_wf n).induction with
  | _ g ih =>
    rintro w' xs rfl hr hxs
    by_cases hq : Narrow.Quiet c kc kl n w'
    · exact ⟨xs, w', hr, hxs, hq⟩
    · unfold Narrow.Quiet at hq
      simp only [Classical.not_forall, Bool.not_eq_true] at hq
      obtain ⟨x, w'', hs, hf⟩ := hq
      refine ih _ (chain_work (chain_runs (narrow_runs hr hxs) h) hs.step hf) w'' (xs ++ [x]) rfl (.snoc hr hs) ?_
      intro y hy
      rcases List.mem_append.1 hy with hy | hy
      · exact hxs y hy
      · rw [List.mem_singleton.1 hy]; exact hf

/-- Without room in the buffer nothing is written. -/
theorem no_room {w w' : Chain.World} {xs : List Who} (h : Chain.Reachable kc kl n w) (hr : Narrow.Steps c kc kl n w xs w')
    {i : Nat} (hi : i ≤ n) :
    ((c i).toLeft = 0 → (w.link i).b.io.out = [] → (w'.link i).b.io.out = []) ∧
    ((c i).toRight = 0 → (w.link i).a.io.out = [] → (w'.link i).a.io.out = []) := by
  suffices Chain.Reachable kc kl n w' ∧ (((c i).toLeft = 0 → (w.link i).b.io.out = [] → (w'.link i).b.io.out = []) ∧
    ((c i).toRight = 0 → (w.link i).a.io.out = [] → (w'.link i).a.io.out = [])) from this.2
  induction hr with
  | nil => exact ⟨h, fun _ => id, fun _ => id⟩
  | snoc _ hs ih =>
    obtain ⟨h', i1, i2⟩ := ih
    obtain ⟨_, _, p3, p4⟩ := pair_inv (link_pair (chain_link h' i hi))
    have hl := hs.lets i hi
    refine ⟨.step h' hs.step, fun hc ho => ?_, fun hc ho => ?_⟩
    · have e := i1 hc ho
      rcases hl.left with h1 | h1
      · rw [h1, e]
      · simp only [e] at p4
        rw [List.prefix_nil.1 p4, hc] at h1
        exact List.eq_nil_of_length_eq_zero (by simpa using h1)
    · have e := i2 hc ho
      rcases hl.right with h1 | h1
      · rw [h1, e]
      · simp only [e] at p3
        rw [List.prefix_nil.1 p3, hc] at h1
        exact List.eq_nil_of_length_eq_zero (by simpa using h1)

theorem few_taken {k : Kind} {s : State} (h : Transport.Reachable k s) (ho : s.out = []) : s.accepted.length ≤ 1 := by
  have wrote : ∀ m : Message, Frame.write m ≠ [] := by
    intro m e
    have := congrArg List.length e
    simp [Frame.write, Frame.frame, utf8] at this
    exact absurd this.1 (by decide)
  have none : ∀ ms : List Message, ms.flatMap Frame.write = [] → ms = [] := by
    intro ms e
    cases ms with
    | nil => rfl
    | cons m ms =>
      rw [List.flatMap_cons] at e
      exact absurd (List.append_eq_nil_iff.1 e).1 (wrote m)
  have := writeInv h
  unfold WriteInv at this
  split at this
  · rw [ho] at this; rw [none _ this.symm]; simp
  · rw [ho] at this; rw [none _ this.1.symm]; simp
  · obtain ⟨ms, m, _, h1, _, h2⟩ := this
    rw [ho] at h2; rw [h1, none _ (List.append_eq_nil_iff.1 h2.symm).1]; simp
  · obtain ⟨_, ms, m, _, _, h1, _, h2⟩ := this
    rw [ho] at h2; rw [h1, none _ (List.append_eq_nil_iff.1 h2.symm).1]; simp
  · obtain ⟨_, ms, m, _, _, h1, _, h2⟩ := this
    rw [ho] at h2; rw [h1, none _ (List.append_eq_nil_iff.1 h2.symm).1]; simp

/-- A relay that has exited does nothing any more. -/
theorem gone_relay {w w' : Chain.World} (h : Chain.Runs kc kl n w w') (hr : Chain.Reachable kc kl n w) {i : Nat} (hi : i < n)
    (hg : (w.link i).b.gone = true) : (w'.link i).b = (w.link i).b ∧ (w'.link (i + 1)).a = (w.link (i + 1)).a := by
  induction h with
  | nil => exact ⟨rfl, rfl⟩
  | @snoc w' x w'' hrs hs hf ih =>
    have g : (w'.link i).b.gone = true := by rw [ih.1]; exact hg
    have bi := bridgeInv (chain_around (chain_runs hrs hr) i hi)
    have g' : (w'.link (i + 1)).a.gone = true := bi.gone.symm.trans g
    suffices (w''.link i).b = (w'.link i).b ∧ (w''.link (i + 1)).a = (w'.link (i + 1)).a from
      ⟨this.1.trans ih.1, this.2.trans ih.2⟩
    cases hs with
    | client hm =>
      refine ⟨?_, by rw [set_other _ _ (by omega)]⟩
      by_cases e : i = 0
      · subst e; rw [set_self]
      · rw [set_other _ _ e]
    | server hm =>
      refine ⟨by rw [set_other _ _ (by omega)], ?_⟩
      by_cases e : i + 1 = n
      · subst e; rw [set_self]
      · rw [set_other _ _ e]
    | @relay j b hj hb =>
      by_cases e : j = i
      · subst e
        exfalso
        cases hb with
        | near h1 _ _ => have := move_there h1; rw [show (w'.around j).left.b.gone = true from g] at this; cases this
        | far h1 _ _ => have := move_there h1; rw [show (w'.around j).right.a.gone = true from g'] at this; cases this
        | up aw _ => have := aw.1; rw [show (w'.around j).left.b.gone = true from g] at this; cases this
        | down aw _ => have := aw.1; rw [show (w'.around j).left.b.gone = true from g] at this; cases this
        | finish aw => have := aw.1; rw [show (w'.around j).left.b.gone = true from g] at this; cases this
      · have eb : b.left.a = (w'.around j).left.a ∧ b.right.b = (w'.around j).right.b := by
          cases hb <;> exact ⟨rfl, rfl⟩
        constructor
        · by_cases e' : i = j + 1
          · subst e'; rw [put_next, eb.2]; rfl
          · rw [put_other _ _ (fun h => e h.symm) e']
        · by_cases e' : i + 1 = j
          · subst e'; rw [put_self, eb.1]; rfl
          · rw [put_other _ _ e' (by omega)]

/-- What has been written and cannot be added to stays written. -/
theorem stays_written {w w' : Chain.World} (h : Chain.Runs kc kl n w w') :
    ((w.link 0).a.io.txAlive = false → ((w.link 0).a.io.writer = .idle ∨ (w.link 0).a.io.writer = .done) →
      (w'.link 0).a.io.writer = .idle ∨ (w'.link 0).a.io.writer = .done) ∧
    ((w.link n).b.io.txAlive = false → ((w.link n).b.io.writer = .idle ∨ (w.link n).b.io.writer = .done) →
      (w'.link n).b.io.writer = .idle ∨ (w'.link n).b.io.writer = .done) := by
  have step : ∀ {k k' : Kind} {x y x' : Side} {ev : Link.Ev}, Move k k' x y ev x' → x.io.txAlive = false →
      (x.io.writer = .idle ∨ x.io.writer = .done) → x'.io.writer = .idle ∨ x'.io.writer = .done := by
    intro k k' x y x' ev hm ht hw
    have key : ∀ {act : Act} {io : State}, Step k x.io act io → io.writer = .idle ∨ io.writer = .done := by
      intro act io hs
      cases hs with
      | read r _ _ => cases r <;> exact hw
      | accept m _ h2 => rw [ht] at h2; cases h2
      | writeFails r h1 => rw [h1] at hw; rcases hw with hw | hw <;> cases hw
      | write bs r h1 => rw [h1] at hw; rcases hw with hw | hw <;> cases hw
      | written => exact .inl rfl
      | close => exact .inr rfl
      | _ => exact hw
    cases hm with
    | own _ hs _ _ _ => exact key hs
    | arrive _ _ _ hs => exact key hs
    | fin _ _ _ hs => exact key hs
    | reset _ _ _ _ hs => exact key hs
    | fails _ _ _ _ hs => exact key hs
    | exit => exact hw
  induction h with
  | nil => exact ⟨fun _ => id, fun _ => id⟩
  | snoc hrs hs hf ih =>
    obtain ⟨⟨_, _, _, a4⟩, ⟨_, _, _, b4⟩, _⟩ := chain_kept_ends hrs
    obtain ⟨c1, c2⟩ := chain_ends hs
    refine ⟨fun ht hw => ?_, fun ht hw => ?_⟩
    · rcases c1 with e | ⟨ev, hm⟩
      · rw [e]; exact ih.1 ht hw
      · exact step hm (a4.trans ht) (ih.1 ht hw)
    · rcases c2 with e | ⟨ev, hm⟩
      · rw [e]; exact ih.2 ht hw
      · exact step hm (b4.trans ht) (ih.2 ht hw)

end

section
variable [LawfulExt] [FloatText] {kc : Kind} {kl : Nat → Kind}

/-- For the examples: the server has sent two messages or more, the client goes, and there is no room in the buffer to the client;
then the relay exits. -/
theorem told_rest (c : Nat → Caps) (hc : (c 0).toLeft = 0) (ns : List Message) (ok : ∀ m ∈ ns, Spec.Sayable m)
    (hl : 2 ≤ ns.length) : ∃ w, Chain.Reachable kc kl 1 w ∧ Narrow.Quiet c kc kl 1 w ∧ (w.link 0).a.gone = true ∧
    (w.link 1).b.gone = false ∧ (w.link 1).b.io.accepted = ns ∧
    (w.link 0).b.io.accepted.length < (w.link 1).b.io.accepted.length ∧
    (w.link 0).b.gone = true ∧ (w.link 1).b.io.rxAlive = true ∧ (w.link 1).a.io.accepted = [] := by
  have h0 := chain_said kc kl 1 [] ns
  have h1 := Chain.Reachable.step h0 (.client (.exit rfl))
  obtain ⟨xs, w, hr, hf, hq⟩ := rest_from h1 c
  have hrs := narrow_runs hr hf
  have hw := chain_runs hrs h1
  obtain ⟨⟨a1, a2, _⟩, ⟨b1, b2, b3, _⟩, _⟩ := chain_kept_ends hrs
  rw [set_self] at a1 a2
  rw [set_other _ _ (by omega)] at b1 b2 b3
  have b3 : (w.link 1).b.io.rxAlive = true := b3
  have a2 : (w.link 0).a.io.accepted = [] := a2
  have b2 : (w.link 1).b.io.accepted = ns := b2
  have b1 : (w.link 1).b.gone = false := b1
  have out : (w.link 0).b.io.out = [] := (no_room h1 hr (i := 0) (by omega)).1 hc (by rw [set_self]; rfl)
  have few : (w.link 0).b.io.accepted.length ≤ 1 := few_taken (pair_inv (link_pair (chain_link hw 0 (by omega)))).2.1 out
  have nil : (w.link 1).a.io.accepted = [] := by
    have h2 := C56_heard (link_pair (chain_link hw 0 (by omega))) (by simp [a2])
    simp only [a2, List.map_nil] at h2
    have h3 := (C148_one hw (i := 0) (by omega)).1.2
    rw [List.prefix_nil.1 h2] at h3
    exact List.prefix_nil.1 h3
  have wR : ∀ r, (w.link (0 + 1)).a.io.writer ≠ .writing r := by
    intro r e
    have := writeInv (pair_inv (link_pair (chain_link hw 1 (by omega)))).1
    simp only [WriteInv, e] at this
    obtain ⟨ms, m, _, h2, _⟩ := this
    simp [nil] at h2
  have wB := (stays_written hrs).2 (by rw [set_other _ _ (by omega)]; rfl) (.inl (by rw [set_other _ _ (by omega)]; rfl))
  have g := told_core hw (i := 0) (by omega) hq a1 wR (by rw [b2]; exact ok) (.inr wB) (by rw [b2]; omega)
  exact ⟨w, hw, hq, a1, b1, b2, by rw [b2]; omega, g, b3, nil⟩

/-- For the examples: and when the buffers are without limit there is such a run, too, at whose end the server has been told. -/
theorem told_run (ns : List Message) (ok : ∀ m ∈ ns, Spec.Sayable m) (hl : 2 ≤ ns.length) : ∃ w,
    Chain.Reachable kc kl 1 w ∧ Chain.Quiet kc kl 1 w ∧ (w.link 0).a.gone = true ∧ (w.link 1).b.gone = false ∧
    (w.link 1).b.io.accepted = ns ∧ (w.link 0).b.io.accepted.length < (w.link 1).b.io.accepted.length ∧
    (w.link 0).b.gone = true ∧ (w.link 1).b.io.reader.ended = true ∧ (w.link 1).b.io.rxAlive = true ∧
    (w.link 1).a.io.accepted = [] := by
  obtain ⟨w, hw, _, a1, b1, b2, hs, g, b3, nil⟩ := told_rest (kc := kc) (kl := kl) (fun _ => ⟨0, 0⟩) rfl ns ok hl
  obtain ⟨u, hu, hq'⟩ := (C142_settles hw).2
  obtain ⟨e, e'⟩ := gone_relay hu hw (i := 0) (by omega) g
  have hU := chain_runs hu hw
  obtain ⟨⟨c1, _⟩, ⟨d1, d2, d3, _⟩, _⟩ := chain_kept_ends hu
  have hl' : (u.link 0).b.io.accepted.length < (u.link 1).b.io.accepted.length := by rw [e, d2]; exact hs
  have ok' : ∀ m ∈ (u.link 1).b.io.accepted, Spec.Sayable m := by rw [d2, b2]; exact ok
  exact ⟨u, hU, hq', c1.trans a1, d1.trans b1, d2.trans b2, hl', (C148_told hU (i := 0) (by omega) (c1.trans a1) ok' hl' hq').1,
    C148_server (j := 0) hU (c1.trans a1) ok' (d1.trans b1) hl' hq', d3.trans b3, by simp only [Nat.zero_add] at e'; rw [e']; exact nil⟩

/-- For the examples: the client has sent three messages or more, the server goes, and there is no room in the buffer to the server;
then the relay exits. -/
theorem told_rest_back (c : Nat → Caps) (hc : (c 1).toRight = 0) (ms : List Message) (ok : ∀ m ∈ ms, Spec.Sayable m)
    (hl : 3 ≤ ms.length) : ∃ w, Chain.Reachable kc kl 1 w ∧ Narrow.Quiet c kc kl 1 w ∧ (w.link 1).b.gone = true ∧
    (w.link 0).a.gone = false ∧ (w.link 0).a.io.accepted = ms ∧
    (w.link 1).a.io.accepted.length + 2 ≤ (w.link 0).a.io.accepted.length ∧
    (w.link 0).b.gone = true ∧ (w.link 0).a.io.rxAlive = true ∧ (w.link 0).b.io.accepted = [] := by
  have h0 := chain_said kc kl 1 ms []
  have h1 := Chain.Reachable.step h0 (.server (.exit rfl))
  obtain ⟨xs, w, hr, hf, hq⟩ := rest_from h1 c
  have hrs := narrow_runs hr hf
  have hw := chain_runs hrs h1
  obtain ⟨⟨a1, a2, a3, _⟩, ⟨b1, b2, _, _⟩, _⟩ := chain_kept_ends hrs
  rw [set_other _ _ (by omega)] at a1 a2 a3
  rw [set_self] at b1 b2
  have a3 : (w.link 0).a.io.rxAlive = true := a3
  have a2 : (w.link 0).a.io.accepted = ms := a2
  have b2 : (w.link 1).b.io.accepted = [] := b2
  have a1 : (w.link 0).a.gone = false := a1
  have out : (w.link 1).a.io.out = [] := (no_room h1 hr (i := 1) (by omega)).2 hc (by rw [set_self]; rfl)
  have few : (w.link 1).a.io.accepted.length ≤ 1 := few_taken (pair_inv (link_pair (chain_link hw 1 (by omega)))).1 out
  have nil : (w.link 0).b.io.accepted = [] := by
    have h2 := C56_heard (pair_swap (link_pair (chain_link hw 1 (by omega)))) (by simp [b2])
    simp only [b2, List.map_nil] at h2
    have h3 := (C148_one hw (i := 0) (by omega)).2.2
    rw [List.prefix_nil.1 h2] at h3
    exact List.prefix_nil.1 h3
  have wL : ∀ r, (w.link 0).b.io.writer ≠ .writing r := by
    intro r e
    have := writeInv (pair_inv (link_pair (chain_link hw 0 (by omega)))).2.1
    simp only [WriteInv, e] at this
    obtain ⟨ms, m, _, h2, _⟩ := this
    simp [nil] at h2
  have wA := (stays_written hrs).1 (by rw [set_other _ _ (by omega)]; rfl) (.inl (by rw [set_other _ _ (by omega)]; rfl))
  have g := told_core_back hw (i := 0) (by omega) hq b1 wL (by rw [a2]; exact ok) (.inr wA) (by rw [a2]; simp only [Nat.zero_add]; omega)
  exact ⟨w, hw, hq, b1, a1, a2, by rw [a2]; omega, g, a3, nil⟩

/-- For the examples: and when the buffers are without limit. -/
theorem told_run_back (ms : List Message) (ok : ∀ m ∈ ms, Spec.Sayable m) (hl : 3 ≤ ms.length) : ∃ w,
    Chain.Reachable kc kl 1 w ∧ Chain.Quiet kc kl 1 w ∧ (w.link 1).b.gone = true ∧ (w.link 0).a.gone = false ∧
    (w.link 0).a.io.accepted = ms ∧ (w.link 1).a.io.accepted.length + 2 ≤ (w.link 0).a.io.accepted.length ∧
    (w.link 0).b.gone = true ∧ (w.link 0).a.io.rxAlive = true ∧ (w.link 0).b.io.accepted = [] := by
  obtain ⟨w, hw, _, b1, a1, a2, hs, g, a3, nil⟩ := told_rest_back (kc := kc) (kl := kl) (fun _ => ⟨0, 0⟩) rfl ms ok hl
  obtain ⟨u, hu, hq'⟩ := (C142_settles hw).2
  obtain ⟨e', e⟩ := gone_relay hu hw (i := 0) (by omega) g
  have hU := chain_runs hu hw
  obtain ⟨⟨c1, c2, c3, _⟩, ⟨d1, _⟩, _⟩ := chain_kept_ends hu
  simp only [Nat.zero_add] at e
  have hl' : (u.link 1).a.io.accepted.length + 2 ≤ (u.link 0).a.io.accepted.length := by rw [e, c2]; exact hs
  exact ⟨u, hU, hq', d1.trans b1, c1.trans a1, c2.trans a2, hl',
    (C148_told_back hU (i := 0) (by omega) (d1.trans b1) (by rw [c2, a2]; exact ok) hl' hq').1, c3.trans a3, by rw [e']; exact nil⟩

end

section
attribute [local instance] Ext.sample FloatText.sample

/-- Beside `C148_told`, `C148_server`, `C148_iff` and `C148_one`: the server has sent two notifications. -/
example (kc : Kind) (kl : Nat → Kind) : ∃ w, Chain.Reachable kc kl 1 w ∧ Chain.Quiet kc kl 1 w ∧ (w.link 0).a.gone = true ∧
    ((w.link 1).b.gone = false ∧ (w.link 1).b.io.rxAlive = true) ∧ (w.link 1).b.io.accepted = [sampleOut, sampleOut] ∧
    (w.link 0).b.io.accepted.length < (w.link 1).b.io.accepted.length ∧
    (w.link 1).a.gone = true ∧ (w.link 1).b.io.reader.ended = true := by
  have ok : ∀ m ∈ [sampleOut, sampleOut], Spec.Sayable m := by
    intro m hm
    simp only [List.mem_cons, List.not_mem_nil, or_false, or_self] at hm
    exact sampleRelay_passing.okB m (by rw [hm]; exact List.mem_cons_self ..)
  obtain ⟨w, h, hq, ha, hb, hs, hl, _, he, hx, hn⟩ := told_run (kc := kc) (kl := kl) _ ok (by decide)
  exact ⟨w, h, hq, ha, ⟨hb, hx⟩, hs, hl, (C148_iff h (i := 0) (by omega) ha (by simp [hn]) (by simp only [Nat.zero_add, hs]; exact ok)
    (by simp [hn]) (by simp [hs, sampleOut]) ⟨hb, hx⟩ hq).2 hl, he⟩

/-- Beside `C148_stays`: the server has sent a notification, which the client has received; then the client exits. -/
example (kc : Kind) (kl : Nat → Kind) : ∃ w, Chain.Reachable kc kl 1 w ∧ (w.link 0).a.gone = true ∧
    (w.link 0).a.io.delivered = [Spec.heard sampleOut] ∧ (w.link 1).b.io.accepted = [sampleOut] ∧
    (w.link 1).a.gone = false ∧ (w.link 1).a.io.reader.ended = false ∧ (w.link 1).b.io.reader.ended = false := by
  have h := chain_said kc kl 1 [] [sampleOut]
  have g := sampleRelay_passing
  have hp : Spec.Passing [] ((endsWorld 1 (saidSide []) (saidSide [sampleOut])).ends 1) :=
    ⟨⟨rfl, g.gone.2⟩, (fun m hm => absurd hm (by simp [Chain.World.ends, endsWorld, saidSide])), g.okB, (by simp), ⟨[.notification .exit], rfl⟩, g.sentB, rfl, g.rxB⟩
  obtain ⟨w, hr, hq⟩ := (C142_settles h).2
  obtain ⟨⟨a1, a2, _⟩, ⟨b1, b2, b3, _⟩, _, _⟩ := chain_kept_ends hr
  have a2 : (w.link 0).a.io.accepted = [] := a2
  have b2 : (w.link 1).b.io.accepted = [sampleOut] := b2
  have hw := chain_runs hr h
  have hpw := chain_runs_passing hr hp
  obtain ⟨d1, d2, d3⟩ := chain_drained hw hpw (by rw [a2]; simp) hq
  have heard := (C142_rest hw hpw (by rw [a2]; simp) hq).1
  have hn : (w.link 1).a.io.accepted = [] := by rw [d3 1 (Nat.le_refl _), a2]; rfl
  have hl : (w.link 1).b.io.accepted.length ≤ (w.link 0).b.io.accepted.length := by
    rw [← (d2 0 (by omega)).2, (d1 1 (Nat.le_refl _)).2, List.length_map]; exact Nat.le_refl _
  have h1 := Chain.Reachable.step hw (.client (.exit a1))
  have o : ∀ l, (w.set 0 l).link 1 = w.link 1 := fun l => set_other _ _ (by omega)
  refine ⟨_, h1, by rw [set_self], by rw [set_self]; simp only [heard, b2, List.map_cons, List.map_nil], by rw [o]; exact b2, ?_⟩
  refine C148_stays h1 (i := 0) (by omega) ?_ ?_ ?_ ?_ ?_ ?_ <;> simp only [Nat.zero_add, o, hn, b2]
  · simp
  · exact g.okB
  · simp
  · exact g.sentB
  · exact ⟨b1, b3⟩
  · rw [set_self]; rw [b2] at hl; exact hl

/-- Beside `C148_told_back` and `C148_iff_back`: the client has sent three. -/
example (kc : Kind) (kl : Nat → Kind) : ∃ w, Chain.Reachable kc kl 1 w ∧ Chain.Quiet kc kl 1 w ∧ (w.link 1).b.gone = true ∧
    ((w.link 0).a.gone = false ∧ (w.link 0).a.io.rxAlive = true) ∧
    (w.link 0).a.io.accepted = [sampleOut, sampleOut, sampleOut] ∧
    (w.link 1).a.io.accepted.length + 2 ≤ (w.link 0).a.io.accepted.length ∧ (w.link 0).b.gone = true := by
  have ok : ∀ m ∈ [sampleOut, sampleOut, sampleOut], Spec.Sayable m := by
    intro m hm
    simp only [List.mem_cons, List.not_mem_nil, or_false, or_self] at hm
    exact sampleRelay_passing.okB m (by rw [hm]; exact List.mem_cons_self ..)
  obtain ⟨w, h, hq, hb, ha, hs, hl, _, hx, hn⟩ := told_run_back (kc := kc) (kl := kl) _ ok (by decide)
  exact ⟨w, h, hq, hb, ⟨ha, hx⟩, hs, hl, (C148_iff_back h (i := 0) (by omega) hb (by rw [hs]; exact ok) (by simp [hn])
    (by simp [hs, sampleOut]) (by simp [hn]) ⟨ha, hx⟩ hq).2 hl⟩

/-- Beside `C148_stays_back`: the client has sent one, and the server exits; when nothing can happen any more the relay is there,
whether or not the message has been handed on. -/
example (kc : Kind) (kl : Nat → Kind) : ∃ w, Chain.Reachable kc kl 1 w ∧ Chain.Quiet kc kl 1 w ∧ (w.link 1).b.gone = true ∧
    (w.link 0).a.io.accepted = [sampleOut] ∧ (w.link 0).b.gone = false ∧ (w.link 0).b.io.reader.ended = false ∧
    (w.link 0).a.io.reader.ended = false := by
  have g := sampleRelay_passing
  have h0 := chain_said kc kl 1 [sampleOut] []
  have h1 := Chain.Reachable.step h0 (.server (.exit rfl))
  obtain ⟨w, hr, hq⟩ := (C142_settles h1).2
  have hw := chain_runs hr h1
  obtain ⟨⟨a1, a2, a3, _⟩, ⟨b1, b2, _, _⟩, _⟩ := chain_kept_ends hr
  rw [set_other _ _ (by omega)] at a1 a2 a3
  rw [set_self] at b1 b2
  have a2 : (w.link 0).a.io.accepted = [sampleOut] := a2
  have b2 : (w.link 1).b.io.accepted = [] := b2
  have nil : (w.link 0).b.io.accepted = [] := by
    have h2 := C56_heard (pair_swap (link_pair (chain_link hw 1 (by omega)))) (by simp [b2])
    simp only [b2, List.map_nil] at h2
    have h3 := (C148_one hw (i := 0) (by omega)).2.2
    rw [List.prefix_nil.1 h2] at h3
    exact List.prefix_nil.1 h3
  exact ⟨w, hw, hq, b1, a2, C148_stays_back hw (i := 0) (by omega) (by rw [a2]; exact g.okB) (by simp [nil])
    (by rw [a2]; exact g.sentB) (by simp [nil]) ⟨a1, a3⟩ (by rw [a2]; simp)⟩

/-- Beside `C148_told_narrow` and `C148_iff_narrow`: there is room for one byte in each direction between the relay and the server, and
none on the other connection; the server has sent two notifications. -/
example (kc : Kind) (kl : Nat → Kind) : ∃ w, Chain.Reachable kc kl 1 w ∧
    Narrow.Quiet (fun i => if i = 0 then ⟨0, 0⟩ else ⟨1, 1⟩) kc kl 1 w ∧ (w.link 0).a.gone = true ∧
    ((w.link 1).b.gone = false ∧ (w.link 1).b.io.rxAlive = true) ∧ (w.link 1).b.io.accepted = [sampleOut, sampleOut] ∧
    (w.link 0).b.io.accepted.length < (w.link 1).b.io.accepted.length ∧ (w.link 1).a.gone = true := by
  have ok : ∀ m ∈ [sampleOut, sampleOut], Spec.Sayable m := by
    intro m hm
    simp only [List.mem_cons, List.not_mem_nil, or_false, or_self] at hm
    exact sampleRelay_passing.okB m (by rw [hm]; exact List.mem_cons_self ..)
  obtain ⟨w, h, hq, ha, hb, hs, hl, _, hx, hn⟩ :=
    told_rest (kc := kc) (kl := kl) (fun i => if i = 0 then ⟨0, 0⟩ else ⟨1, 1⟩) rfl _ ok (by decide)
  exact ⟨w, h, hq, ha, ⟨hb, hx⟩, hs, hl, (C148_iff_narrow (j := 0) h (by decide) ha (by simp [hn])
    (by simp only [Nat.zero_add, hs]; exact ok) (by simp [hn]) (by simp [hs, sampleOut]) ⟨hb, hx⟩ hq).2 hl⟩

/-- Beside `C148_told_back_narrow` and `C148_iff_back_narrow`: the other way round, and the client has sent three. -/
example (kc : Kind) (kl : Nat → Kind) : ∃ w, Chain.Reachable kc kl 1 w ∧
    Narrow.Quiet (fun i => if i = 0 then ⟨1, 1⟩ else ⟨0, 0⟩) kc kl 1 w ∧ (w.link 1).b.gone = true ∧
    ((w.link 0).a.gone = false ∧ (w.link 0).a.io.rxAlive = true) ∧
    (w.link 0).a.io.accepted = [sampleOut, sampleOut, sampleOut] ∧
    (w.link 1).a.io.accepted.length + 2 ≤ (w.link 0).a.io.accepted.length ∧ (w.link 0).b.gone = true := by
  have ok : ∀ m ∈ [sampleOut, sampleOut, sampleOut], Spec.Sayable m := by
    intro m hm
    simp only [List.mem_cons, List.not_mem_nil, or_false, or_self] at hm
    exact sampleRelay_passing.okB m (by rw [hm]; exact List.mem_cons_self ..)
  obtain ⟨w, h, hq, hb, ha, hs, hl, _, hx, hn⟩ :=
    told_rest_back (kc := kc) (kl := kl) (fun i => if i = 0 then ⟨1, 1⟩ else ⟨0, 0⟩) rfl _ ok (by decide)
  exact ⟨w, h, hq, hb, ⟨ha, hx⟩, hs, hl, (C148_iff_back_narrow (n := 0) h (by decide) hb (by rw [hs]; exact ok) (by simp [hn])
    (by simp [hs, sampleOut]) (by simp [hn]) ⟨ha, hx⟩ hq).2 hl⟩

end
end Bsp
