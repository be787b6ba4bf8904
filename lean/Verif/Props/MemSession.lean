/-
C84: a server on one end of `Connection::memory` behaves as on a real connection.
-/
import Verif.MemSession
import Verif.Props.Memory
import Verif.Props.Outcome

set_option linter.unusedSectionVars false

namespace Bsp
open Conn Session Mem

section
variable [Ext] [Dbg] {process : InitializeBuild → Option Value} {side : Side}

/-! ### Specification -/

/-- What the server has received. -/
def Spec.received (side : Side) (p : MemSession.Proc) : List Message := Spec.receivedBy side p.seen
/-- What the server has sent. -/
def Spec.replied (side : Side) (p : MemSession.Proc) : List Message := Spec.sentBy side p.seen
/-- What the tester has sent. -/
def Spec.given (side : Side) (p : MemSession.Proc) : List Message := Spec.sentBy side.other p.seen
/-- The tester can still receive. -/
def Spec.Listens (side : Side) (p : MemSession.Proc) : Prop := 0 < Spec.receivers side.other 1 p.seen
/-- The tester can still send. -/
def Spec.Talks (side : Side) (p : MemSession.Proc) : Prop := 0 < Spec.senders side.other 1 p.seen

/-! ### The channels -/

theorem other_other (side : Side) : side.other.other = side := by cases side <;> rfl
theorem other_ne (side : Side) : side.other ≠ side := by cases side <;> decide

/-- The channel from `a`, in any state. -/
theorem chan_from {s : State} {tr : List (Side × Ev)} (h : Inv s tr) (a : Side) : ∃ x : Chan,
    ChanInv x a a.other tr ∧
    (∀ op : Op, (∀ c : Mem.Conn, op.end c = c.receiver) → (step s a.other op).2 = (op.on x).2) ∧
    (∀ op : Op, (∀ c : Mem.Conn, op.end c = c.sender) → (step s a op).2 = (op.on x).2) := by
  obtain ⟨hc, hl, hr⟩ := h
  cases a with
  | left => exact ⟨_, hl, fun op ho => by simp only [step, ho, hc]; rfl, fun op ho => by simp only [step, ho, hc]; rfl⟩
  | right => exact ⟨_, hr, fun op ho => by simp only [step, ho, hc]; rfl, fun op ho => by simp only [step, ho, hc]; rfl⟩

/-- What an operation does to a history. -/
theorem does_seen (p : MemSession.Proc) (a : Side) (op : Op) :
    (p.does a op).seen = p.seen ++ [(a, p.outcome a op)] := rfl

theorem outcome_cases (p : MemSession.Proc) (h : Inv p.mem p.seen) (a : Side) (op : Op) :
    (op = .recv → (0 < Spec.receivers a 1 p.seen → p.outcome a op ≠ .gone) ∧
      (∀ m, p.outcome a op = .received m → Spec.receivedBy a p.seen ++ [m] <+: Spec.sentBy a.other p.seen) ∧
      (p.outcome a op = .disconnected → Spec.receivedBy a p.seen = Spec.sentBy a.other p.seen ∧
        Spec.senders a.other 1 p.seen = 0) ∧
      (p.outcome a op = .empty → Spec.receivedBy a p.seen = Spec.sentBy a.other p.seen ∧
        0 < Spec.senders a.other 1 p.seen)) ∧
    (∀ m, op = .send m → (0 < Spec.senders a 1 p.seen → p.outcome a op ≠ .gone) ∧
      (p.outcome a op = .sendFailed m → Spec.receivers a.other 1 p.seen = 0) ∧
      (p.outcome a op = .sent m → 0 < Spec.receivers a.other 1 p.seen)) ∧
    (op = .dropReceiver → p.outcome a op = .gone ∨ p.outcome a op = .droppedReceiver) ∧
    (op = .dropSender → p.outcome a op = .gone ∨ p.outcome a op = .droppedSender) := by
  refine ⟨?_, ?_, ?_, ?_⟩
  · rintro rfl
    obtain ⟨x, ⟨h1, h2, lost, h3, h4⟩, h5, _⟩ := chan_from h a.other
    rw [other_other] at h2 h3 h4 h5
    have h5 : p.outcome a .recv = (Chan.recv x).2 := h5 .recv (fun _ => rfl)
    rw [h5]
    unfold Chan.recv
    split
    · refine ⟨fun h => by omega, by simp, by simp, by simp⟩
    · rename_i h6
      have : lost = [] := h4 (by omega)
      subst this
      split
      · rename_i m r hq
        refine ⟨by simp, ?_, by simp, by simp⟩
        rintro m' h7
        cases h7
        exact ⟨r, by simp [h3, hq]⟩
      · rename_i hq
        rw [hq] at h3
        split
        · exact ⟨by simp, by simp, fun _ => ⟨by simp [h3], by omega⟩, by simp⟩
        · exact ⟨by simp, by simp, by simp, fun _ => ⟨by simp [h3], by omega⟩⟩
  · rintro m rfl
    obtain ⟨x, ⟨h1, h2, _⟩, _, h6⟩ := chan_from h a
    have h6 : p.outcome a (.send m) = (Chan.send x m).2 := h6 (.send m) (fun _ => rfl)
    rw [h6]
    unfold Chan.send
    split
    · exact ⟨fun h => by omega, by simp, by simp⟩
    · split
      · exact ⟨by simp, fun _ => by omega, by simp⟩
      · exact ⟨by simp, by simp, fun _ => by omega⟩
  · rintro rfl
    simp only [MemSession.Proc.outcome, step, Op.on, Chan.dropReceiver]
    split <;> simp
  · rintro rfl
    simp only [MemSession.Proc.outcome, step, Op.on, Chan.dropSender]
    split <;> simp

/-- An event of the tester, as far as it concerns the server. -/
theorem tester_ev {p : MemSession.Proc} (h : Inv p.mem p.seen) (op : Op) :
    (∀ m, p.outcome side.other op = .clonedReceiver ∨ p.outcome side.other op = .received m →
      0 < Spec.receivers side.other 1 p.seen) ∧
    (∀ m, p.outcome side.other op = .sent m ∨ p.outcome side.other op = .clonedSender →
      0 < Spec.senders side.other 1 p.seen) := by
  rcases end_cases op with ho | ho
  · obtain ⟨x, ⟨h1, h2, _⟩, _, h6⟩ := chan_from h side.other
    have h6 : p.outcome side.other op = (op.on x).2 := h6 op ho
    rw [h6]
    refine ⟨fun m hm => ?_, fun m hm => ?_⟩
    · rcases sender_ev op x ho with h | ⟨_, h⟩ | ⟨_, h⟩ | h | h <;> rw [h] at hm <;> simp at hm
    · cases op <;> simp only [Op.on, Chan.send, Chan.recv, Chan.cloneSender, Chan.cloneReceiver, Chan.dropSender,
        Chan.dropReceiver] at hm <;> repeat' split at hm
      all_goals first | omega | simp at hm
  · obtain ⟨x, ⟨h1, h2, _⟩, h5, _⟩ := chan_from h side
    have h5 : p.outcome side.other op = (op.on x).2 := h5 op ho
    rw [h5]
    refine ⟨fun m hm => ?_, fun m hm => ?_⟩
    · cases op <;> simp only [Op.on, Chan.send, Chan.recv, Chan.cloneSender, Chan.cloneReceiver, Chan.dropSender,
        Chan.dropReceiver] at hm <;> repeat' split at hm
      all_goals first | omega | simp at hm
    · rcases receiver_ev op x ho with h | ⟨_, h⟩ | h | h | h | h <;> rw [h] at hm <;> simp at hm

/-! ### The invariant -/

/-- Where the server is, given what it has received and sent: `a` is where it would be after having sent everything
it owes. -/
inductive MAt (process : InitializeBuild → Option Value) (side : Side) (as : List MemSession.Act)
    (p : MemSession.Proc) (a : App) (owed : List Message) : Prop
  | rest : p.app = a → Spec.replied side p = owed → MAt process side as p a owed
  | sending {m} : toSend p.app = some m → onSent p.app true = a → owed = Spec.replied side p ++ [m] →
      MAt process side as p a owed
  | closed : a.receives = true → p.app = onRecv process a none → Spec.received side p = Spec.given side p →
      ¬ Spec.Talks side p → Spec.replied side p = owed → MAt process side as p a owed
  | late : a = .leaving → p.app = .ended (.err ("unexpected error during shutdown: " ++ Dbg.timeout)) →
      MemSession.Act.timeout ∈ as → Spec.replied side p = owed → MAt process side as p a owed

/-- What holds of a server on a pair of memory connections. -/
structure MInv (process : InitializeBuild → Option Value) (side : Side) (as : List MemSession.Act)
    (p : MemSession.Proc) : Prop where
  mem : Inv p.mem p.seen
  sent : Spec.replied side p <+: (feed process .start (Spec.received side p)).2
  failed : (∃ m, (side, Ev.sendFailed m) ∈ p.seen) → ¬ Spec.Listens side p
  at' : (∀ m, (side, Ev.sendFailed m) ∉ p.seen) →
    MAt process side as p (feed process .start (Spec.received side p)).1 (feed process .start (Spec.received side p)).2
  ready : (∀ m, (side, Ev.sendFailed m) ∉ p.seen) →
    ∀ ms m, ms ++ [m] <+: Spec.received side p → (feed process .start ms).1.receives = true
  own : (∀ r, p.app ≠ .ended r) → Spec.senders side 1 p.seen = 1 ∧ Spec.receivers side 1 p.seen = 1


/-- Events of one side do not count for the other. -/
theorem count_ne {a b : Side} (h : a ≠ b) (tr : List (Side × Ev)) (e : Ev) :
    Spec.receivedBy b (tr ++ [(a, e)]) = Spec.receivedBy b tr ∧ Spec.sentBy b (tr ++ [(a, e)]) = Spec.sentBy b tr ∧
    Spec.senders b 1 (tr ++ [(a, e)]) = Spec.senders b 1 tr ∧
    Spec.receivers b 1 (tr ++ [(a, e)]) = Spec.receivers b 1 tr := by
  rw [receivedBy_append, sentBy_append, senders_append, receivers_append]
  cases e <;> simp [Spec.receivedBy, Spec.sentBy, Spec.senders, Spec.receivers, h]

theorem ended_at {as : List MemSession.Act} {p : MemSession.Proc} {a : App} {owed : List Message} {r : Out Unit}
    (h : MAt process side as p a owed) (he : p.app = .ended r) : Spec.replied side p = owed := by
  cases h with
  | rest _ h => exact h
  | sending h => rw [he] at h; cases h
  | closed _ _ _ _ h => exact h
  | late _ _ _ h => exact h

theorem own_same (q : MemSession.Proc) (op : Op) :
    Spec.given side (q.does side op) = Spec.given side q ∧ Spec.Talks side (q.does side op) = Spec.Talks side q ∧
    Spec.Listens side (q.does side op) = Spec.Listens side q := by
  obtain ⟨_, h2, h3, h4⟩ := count_ne (fun h => other_ne side h.symm) q.seen (q.outcome side op)
  simp [Spec.given, Spec.Talks, Spec.Listens, does_seen, h2, h3, h4]

theorem inv_drop {q : MemSession.Proc} {as : List MemSession.Act} (h : MInv process side as q) {e : Out Unit}
    (he : q.app = .ended e) {op : Op}
    (hop : (op = .dropReceiver ∧ q.outcome side op = .droppedReceiver) ∨
      (op = .dropSender ∧ q.outcome side op = .droppedSender)) :
    MInv process side (as ++ [.drop]) (q.does side op) := by
  obtain ⟨im, is, iF, ia, iR, io⟩ := h
  have hs := own_same (side := side) q op
  have hr : Spec.received side (q.does side op) = Spec.received side q ∧
      Spec.replied side (q.does side op) = Spec.replied side q ∧
      ∀ x, (side, Ev.sendFailed x) ∈ (q.does side op).seen ↔ (side, Ev.sendFailed x) ∈ q.seen := by
    rcases hop with ⟨rfl, h4⟩ | ⟨rfl, h4⟩ <;>
      simp [Spec.received, Spec.replied, does_seen, h4, receivedBy_append, Spec.receivedBy, sentBy_append, Spec.sentBy]
  obtain ⟨hr, hp, hf⟩ := hr
  refine ⟨inv_step im _ _, by rw [hr, hp]; exact is, fun ⟨x, h⟩ => hs.2.2 ▸ iF ⟨x, (hf x).1 h⟩, ?_, ?_,
    fun h => absurd he (h e)⟩
  · intro h
    rw [hr]
    cases ia fun m hm => h m ((hf m).2 hm) with
    | rest h7 h8 => exact .rest h7 (hp.trans h8)
    | sending h7 h8 h9 => rw [he] at h7; cases h7
    | closed h7 h8 h9 h10 h11 => exact .closed h7 h8 (by rw [hr, hs.1, h9]) (by rw [hs.2.1]; exact h10) (hp.trans h11)
    | late h7 h8 h9 h10 => exact .late h7 h8 (by simp [h9]) (hp.trans h10)
  · intro h
    rw [hr]
    exact iR fun m hm => h m ((hf m).2 hm)

theorem mem_inv {p : MemSession.Proc} {as : List MemSession.Act} (h : MemSession.Steps side process {} as p) :
    MInv process side as p := by
  have key : ∀ {p0 as p}, MemSession.Steps side process p0 as p → p0 = ({} : MemSession.Proc) →
      MInv process side as p := by
    intro p0 as p h
    induction h with
    | nil =>
      intro e
      subst e
      exact ⟨inv_init, List.prefix_rfl, by simp, fun _ => .rest rfl rfl, fun _ ms m h => by
        have := h.length_le; simp [Spec.received, Spec.receivedBy] at this, fun _ => ⟨rfl, rfl⟩⟩
    | @snoc as q a r h1 h2 ih =>
      intro e
      subst e
      have ih := ih rfl
      obtain ⟨im, is, iF, ia, iR, io⟩ := ih
      cases h2 with
      | tester op =>
        obtain ⟨h3, h4, h5, h6⟩ := count_ne (other_ne side) q.seen (q.outcome side.other op)
        have hev := tester_ev (side := side) im op
        have hr : Spec.received side (q.does side.other op) = Spec.received side q := h3
        have hs : Spec.replied side (q.does side.other op) = Spec.replied side q := h4
        have hl : ¬ Spec.Listens side q → ¬ Spec.Listens side (q.does side.other op) := by
          unfold Spec.Listens
          rw [does_seen, receivers_append]
          intro h
          cases hq : q.outcome side.other op <;> simp only [Spec.receivers, if_true] <;> try exact h
          · exact absurd (hev.1 (.notification .exit) (.inl hq)) h
          · omega
        have ht : ¬ Spec.Talks side q → ¬ Spec.Talks side (q.does side.other op) ∧
            Spec.given side (q.does side.other op) = Spec.given side q := by
          unfold Spec.Talks Spec.given
          rw [does_seen, senders_append, sentBy_append]
          intro h
          cases hq : q.outcome side.other op <;> simp only [Spec.senders, Spec.sentBy, if_true, List.append_nil] <;>
            try exact ⟨h, trivial⟩
          · exact absurd (hev.2 _ (.inl hq)) h
          · exact absurd (hev.2 (.notification .exit) (.inr hq)) h
          · exact ⟨by omega, trivial⟩
        have hf : ∀ m, (side, Ev.sendFailed m) ∈ (q.does side.other op).seen ↔ (side, Ev.sendFailed m) ∈ q.seen := by
          intro m
          rw [does_seen, List.mem_append]
          refine ⟨fun h => h.elim id fun h => ?_, .inl⟩
          simp only [List.mem_singleton, Prod.mk.injEq] at h
          exact absurd h.1.symm (other_ne side)
        refine ⟨inv_step im _ _, by rw [hr, hs]; exact is, fun ⟨m, h⟩ => hl (iF ⟨m, (hf m).1 h⟩), ?_, ?_, ?_⟩
        · intro h
          rw [hr]
          cases ia fun m hm => h m ((hf m).2 hm) with
          | rest h7 h8 => exact .rest h7 (hs.trans h8)
          | sending h7 h8 h9 => exact .sending h7 h8 (hs ▸ h9)
          | closed h7 h8 h9 h10 h11 =>
            obtain ⟨h12, h13⟩ := ht h10
            exact .closed h7 h8 (by rw [hr, h13, h9]) h12 (hs.trans h11)
          | late h7 h8 h9 h10 => exact .late h7 h8 (by simp [h9]) (hs.trans h10)
        · intro h
          rw [hr]
          exact iR fun m hm => h m ((hf m).2 hm)
        · intro h
          rw [does_seen, h5, h6]
          exact io h
      | @recv m h3 h4 =>
        have hs := own_same (side := side) q .recv
        have hr : Spec.received side (q.does side .recv) = Spec.received side q ++ [m] := by
          simp [Spec.received, does_seen, h4, receivedBy_append, Spec.receivedBy]
        have hp : Spec.replied side (q.does side .recv) = Spec.replied side q := by
          simp [Spec.replied, does_seen, h4, sentBy_append, Spec.sentBy]
        have hf : ∀ x, (side, Ev.sendFailed x) ∈ (q.does side .recv).seen ↔ (side, Ev.sendFailed x) ∈ q.seen := by
          simp [does_seen, h4]
        have hown := io fun r h => by rw [h] at h3; cases h3
        have hnew : Spec.senders side 1 (q.does side .recv).seen = 1 ∧
            Spec.receivers side 1 (q.does side .recv).seen = 1 := by
          simp [does_seen, h4, senders_append, receivers_append, Spec.senders, Spec.receivers, hown]
        refine ⟨inv_step im _ _, ?_, fun ⟨x, h⟩ => hs.2.2 ▸ iF ⟨x, (hf x).1 h⟩, ?_, ?_, fun _ => hnew⟩
        · show Spec.replied side (q.does side .recv) <+: (feed process .start (Spec.received side (q.does side .recv))).2
          rw [hr, hp, feed_snoc]
          exact is.trans (List.prefix_append _ _)
        · intro h
          have hat := ia fun x hx => h x ((hf x).2 hx)
          show MAt process side _ _ (feed process .start (Spec.received side (q.does side .recv))).1
            (feed process .start (Spec.received side (q.does side .recv))).2
          rw [hr, feed_snoc]
          cases hat with
          | rest h5 h6 =>
            rw [← h5]
            unfold round
            split
            · rename_i x hx
              exact .sending hx rfl (by rw [← h6, ← hp]; rfl)
            · exact .rest rfl (by rw [List.append_nil, ← h6, ← hp]; rfl)
          | sending h5 _ _ => rw [toSend_receives h5] at h3; cases h3
          | closed h5 h6 _ _ _ =>
            obtain ⟨r, h7⟩ := onRecv_none (process := process) h5
            rw [h6, h7] at h3; cases h3
          | late _ h6 _ _ => rw [h6] at h3; cases h3
        · intro h ms x hx
          have hat := ia fun x hx => h x ((hf x).2 hx)
          have hx : ms ++ [x] <+: Spec.received side q ++ [m] := by rw [← hr]; exact hx
          rcases List.prefix_concat_iff.1 hx with h5 | h5
          · obtain ⟨rfl, _⟩ := List.append_inj' h5 rfl
            cases hat with
            | rest h5 _ => rw [← h5]; exact h3
            | sending h5 _ _ => rw [toSend_receives h5] at h3; cases h3
            | closed h5 _ _ _ _ => exact h5
            | late h5 _ _ _ => rw [h5]; rfl
          · exact iR (fun x hx => h x ((hf x).2 hx)) ms x h5
      | closed h3 h4 =>
        have hs := own_same (side := side) q .recv
        have hr : Spec.received side (q.does side .recv) = Spec.received side q := by
          simp [Spec.received, does_seen, h4, receivedBy_append, Spec.receivedBy]
        have hp : Spec.replied side (q.does side .recv) = Spec.replied side q := by
          simp [Spec.replied, does_seen, h4, sentBy_append, Spec.sentBy]
        have hf : ∀ x, (side, Ev.sendFailed x) ∈ (q.does side .recv).seen ↔ (side, Ev.sendFailed x) ∈ q.seen := by
          simp [does_seen, h4]
        have hout := ((outcome_cases q im side .recv).1 rfl).2.2.1 h4
        obtain ⟨e, he⟩ := onRecv_none (process := process) h3
        refine ⟨inv_step im _ _, ?_, fun ⟨x, h⟩ => hs.2.2 ▸ iF ⟨x, (hf x).1 h⟩, ?_, ?_, fun h => absurd he (h e)⟩
        · show Spec.replied side (q.does side .recv) <+: (feed process .start (Spec.received side (q.does side .recv))).2
          rw [hr, hp]
          exact is
        · intro h
          have hat := ia fun x hx => h x ((hf x).2 hx)
          show MAt process side _ _ (feed process .start (Spec.received side (q.does side .recv))).1
            (feed process .start (Spec.received side (q.does side .recv))).2
          rw [hr]
          cases hat with
          | rest h5 h6 =>
            rw [← h5]
            exact .closed h3 rfl (hr.trans (hout.1.trans hs.1.symm))
              (by have := hs.2.1; unfold Spec.Talks at *; simp only at *; rw [this]; omega) (hp.trans h6)
          | sending h5 _ _ => rw [toSend_receives h5] at h3; cases h3
          | closed h5 h6 _ _ _ =>
            obtain ⟨r, h7⟩ := onRecv_none (process := process) h5
            rw [h6, h7] at h3; cases h3
          | late _ h6 _ _ => rw [h6] at h3; cases h3
        · intro h
          have := iR fun x hx => h x ((hf x).2 hx)
          rw [← hr] at this
          exact this
      | @send m h3 h4 =>
        have hs := own_same (side := side) q (.send m)
        have hr : Spec.received side (q.does side (.send m)) = Spec.received side q := by
          simp [Spec.received, does_seen, h4, receivedBy_append, Spec.receivedBy]
        have hp : Spec.replied side (q.does side (.send m)) = Spec.replied side q ++ [m] := by
          simp [Spec.replied, does_seen, h4, sentBy_append, Spec.sentBy]
        have hf : ∀ x, (side, Ev.sendFailed x) ∈ (q.does side (.send m)).seen ↔ (side, Ev.sendFailed x) ∈ q.seen := by
          simp [does_seen, h4]
        have hl : Spec.Listens side q := ((outcome_cases q im side (.send m)).2.1 m rfl).2.2 h4
        have hno : ∀ x, (side, Ev.sendFailed x) ∉ q.seen := fun x hx => iF ⟨x, hx⟩ hl
        have hown := io fun r h => by rw [h] at h3; cases h3
        have hnew : Spec.senders side 1 (q.does side (.send m)).seen = 1 ∧
            Spec.receivers side 1 (q.does side (.send m)).seen = 1 := by
          simp [does_seen, h4, senders_append, receivers_append, Spec.senders, Spec.receivers, hown]
        have hat : onSent q.app true = (feed process .start (Spec.received side q)).1 ∧
            (feed process .start (Spec.received side q)).2 = Spec.replied side q ++ [m] := by
          cases ia hno with
          | rest h5 h6 =>
            have := feed_toSend (process := process) (a := .start) rfl (Spec.received side q)
            rw [← h5, h3] at this; cases this
          | sending h5 h6 h7 => rw [h3] at h5; cases h5; exact ⟨h6, h7⟩
          | closed h5 h6 _ _ _ =>
            obtain ⟨r, h7⟩ := onRecv_none (process := process) h5
            rw [h6, h7] at h3; cases h3
          | late _ h6 _ _ => rw [h6] at h3; cases h3
        refine ⟨inv_step im _ _, ?_, fun ⟨x, h⟩ => hs.2.2 ▸ iF ⟨x, (hf x).1 h⟩, ?_, ?_, fun _ => hnew⟩
        · show Spec.replied side (q.does side (.send m)) <+: (feed process .start (Spec.received side (q.does side (.send m)))).2
          rw [hr, hp, hat.2]
          exact List.prefix_rfl
        · intro _
          show MAt process side _ _ (feed process .start (Spec.received side (q.does side (.send m)))).1
            (feed process .start (Spec.received side (q.does side (.send m)))).2
          rw [hr]
          exact .rest hat.1 (hp.trans hat.2.symm)
        · intro _
          have := iR hno
          rw [← hr] at this
          exact this
      | @unsent m h3 h4 =>
        have hs := own_same (side := side) q (.send m)
        have hr : Spec.received side (q.does side (.send m)) = Spec.received side q := by
          simp [Spec.received, does_seen, h4, receivedBy_append, Spec.receivedBy]
        have hp : Spec.replied side (q.does side (.send m)) = Spec.replied side q := by
          simp [Spec.replied, does_seen, h4, sentBy_append, Spec.sentBy]
        have hf : (side, Ev.sendFailed m) ∈ (q.does side (.send m)).seen := by
          simp [does_seen, h4]
        have hl : ¬ Spec.Listens side q := by
          have := ((outcome_cases q im side (.send m)).2.1 m rfl).2.1 h4
          unfold Spec.Listens; omega
        have hown := io fun r h => by rw [h] at h3; cases h3
        have hnew : Spec.senders side 1 (q.does side (.send m)).seen = 1 ∧
            Spec.receivers side 1 (q.does side (.send m)).seen = 1 := by
          simp [does_seen, h4, senders_append, receivers_append, Spec.senders, Spec.receivers, hown]
        refine ⟨inv_step im _ _, ?_, fun _ => hs.2.2 ▸ hl, fun h => absurd hf (h m), fun h => absurd hf (h m), fun _ => hnew⟩
        show Spec.replied side (q.does side (.send m)) <+: (feed process .start (Spec.received side (q.does side (.send m)))).2
        rw [hr, hp]
        exact is
      | timeout h3 =>
        refine ⟨im, is, iF, fun h => ?_, iR, fun h => absurd rfl (h _)⟩
        cases ia h with
        | rest h5 h6 => exact .late (h5.symm.trans h3) rfl (by simp) h6
        | sending h5 _ _ => rw [h3] at h5; cases h5
        | closed h5 h6 _ _ _ =>
          obtain ⟨r, h7⟩ := onRecv_none (process := process) h5
          rw [h3, h7] at h6; cases h6
        | late _ h6 _ _ => rw [h3] at h6; cases h6
      | @dropRx e h3 h4 =>
        exact inv_drop ⟨im, is, iF, ia, iR, io⟩ h3 (.inl ⟨rfl, h4⟩)
      | @dropTx e h3 h4 => exact inv_drop ⟨im, is, iF, ia, iR, io⟩ h3 (.inr ⟨rfl, h4⟩)
  exact key h rfl

/-! ### C84 -/

theorem received_given {p : MemSession.Proc} (h : Inv p.mem p.seen) :
    Spec.received side p <+: Spec.given side p := by
  obtain ⟨x, ⟨_, _, lost, h3, _⟩, _⟩ := chan_from h side.other
  rw [other_other] at h3
  exact ⟨x.queue ++ lost, by rw [Spec.given, h3, List.append_assoc]; rfl⟩

/-- C84: whatever the tester does, the server has received an initial part of what the tester has sent, and has sent
an initial part of what the sequential program sends for that. -/
theorem C84_sent {p : MemSession.Proc} {as : List MemSession.Act} (h : MemSession.Steps side process {} as p) :
    Spec.received side p <+: Spec.given side p ∧
    Spec.replied side p <+: Spec.answers process (Spec.received side p) := by
  have hi := mem_inv h
  exact ⟨received_given hi.mem, by rw [answers_eq]; exact hi.sent⟩

/-- C84: a send of the server never waits for the tester. -/
theorem C84_never_waits_to_send {p : MemSession.Proc} {as : List MemSession.Act}
    (h : MemSession.Steps side process {} as p) {m : Message} (hm : toSend p.app = some m) :
    ∃ q, MemSession.Step side process p .main q := by
  have hi := mem_inv h
  have hown := hi.own fun r h => by rw [h] at hm; cases hm
  have h1 := ((outcome_cases p hi.mem side (.send m)).2.1 m rfl).1 (by omega)
  obtain ⟨x, _, _, h6⟩ := chan_from hi.mem side
  have h6 : p.outcome side (.send m) = (Chan.send x m).2 := h6 (.send m) (fun _ => rfl)
  have : p.outcome side (.send m) = .sent m ∨ p.outcome side (.send m) = .sendFailed m := by
    rw [h6] at h1 ⊢
    unfold Chan.send at *
    split at h1
    · simp at h1
    · rename_i h7
      rw [if_neg h7]
      split <;> simp
  rcases this with h2 | h2
  · exact ⟨_, .send hm h2⟩
  · exact ⟨_, .unsent hm h2⟩

/-- What is settled when the server can do nothing but wait. -/
theorem mem_rest {p : MemSession.Proc} {as : List MemSession.Act} (h : MemSession.Steps side process {} as p)
    (hl : Spec.Listens side p) (ht : MemSession.Act.timeout ∉ as) (hq : MemSession.Quiet side process p) :
    Spec.replied side p = (feed process .start (Spec.received side p)).2 ∧
    (∀ ms m, ms ++ [m] <+: Spec.received side p → (feed process .start ms).1.receives = true) ∧
    ((∃ r, (feed process .start (Spec.received side p)).1 = .ended r ∧ p.app = .ended r) ∨
     ((feed process .start (Spec.received side p)).1.receives = true ∧ Spec.received side p = Spec.given side p ∧
      ((Spec.Talks side p ∧ p.app = (feed process .start (Spec.received side p)).1) ∨
       (¬ Spec.Talks side p ∧ p.app = onRecv process (feed process .start (Spec.received side p)).1 none)))) := by
  have hi := mem_inv h
  have hno : ∀ m, (side, Ev.sendFailed m) ∉ p.seen := fun m hm => hi.failed ⟨m, hm⟩ hl
  refine ⟨?_, hi.ready hno, ?_⟩
  · cases hi.at' hno with
    | rest _ h => exact h
    | sending h1 _ _ =>
      obtain ⟨q, h2⟩ := C84_never_waits_to_send h h1
      rcases hq _ _ h2 with h | h <;> cases h
    | closed _ _ _ _ h => exact h
    | late _ _ h _ => exact absurd h ht
  · cases hi.at' hno with
    | rest h1 h2 =>
      rcases rests (feed_toSend (process := process) (a := .start) rfl (Spec.received side p)) with h3 | ⟨r, h3⟩
      · right
        have hown := hi.own fun r h => by rw [← h1, h] at h3; cases h3
        have hc := (outcome_cases p hi.mem side .recv).1 rfl
        have he : p.outcome side .recv = .empty := by
          obtain ⟨x, _, h5, _⟩ := chan_from hi.mem side.other
          rw [other_other] at h5
          have h5 : p.outcome side .recv = (Chan.recv x).2 := h5 .recv (fun _ => rfl)
          have hg := hc.1 (by omega)
          cases ho : p.outcome side .recv with
          | empty => rfl
          | received m => rcases hq _ _ (.recv (h1 ▸ h3) ho) with h | h <;> cases h
          | disconnected => rcases hq _ _ (.closed (h1 ▸ h3) ho) with h | h <;> cases h
          | gone => exact absurd ho hg
          | _ =>
            rw [h5] at ho
            unfold Chan.recv at ho
            repeat' split at ho
            all_goals simp at ho
        obtain ⟨h4, h5⟩ := hc.2.2.2 he
        exact ⟨h3, h4, .inl ⟨h5, h1⟩⟩
      · exact .inl ⟨r, h3, h1.trans h3⟩
    | sending h1 _ _ =>
      obtain ⟨q, h2⟩ := C84_never_waits_to_send h h1
      rcases hq _ _ h2 with h | h <;> cases h
    | closed h1 h2 h3 h4 h5 => exact .inr ⟨h1, h3, .inr ⟨h4, h2⟩⟩
    | late _ _ h _ => exact absurd h ht

/-- C84: when the server can do nothing but wait, it has ended or it has received everything that the tester has sent,
and it has sent all its answers. -/
theorem C84_rest {p : MemSession.Proc} {as : List MemSession.Act} (h : MemSession.Steps side process {} as p)
    (hl : Spec.Listens side p) (ht : MemSession.Act.timeout ∉ as) (hq : MemSession.Quiet side process p) :
    Spec.replied side p = Spec.answers process (Spec.received side p) ∧
    ((∃ r, p.app = .ended r) ∨
     (p.app.receives = true ∧ Spec.Talks side p ∧ Spec.received side p = Spec.given side p)) := by
  obtain ⟨h1, _, h2⟩ := mem_rest h hl ht hq
  refine ⟨by rw [answers_eq, h1], ?_⟩
  rcases h2 with ⟨r, _, h3⟩ | ⟨h3, h4, ⟨h5, h6⟩ | ⟨h5, h6⟩⟩
  · exact .inl ⟨r, h3⟩
  · exact .inr ⟨h6 ▸ h3, h5, h4⟩
  · obtain ⟨r, h7⟩ := onRecv_none (process := process) h3
    exact .inl ⟨r, h6.trans h7⟩

/-- The channels of the server after one of its operations. -/
theorem does_chans {p : MemSession.Proc} (hi : p.mem.conn = memory.conn) (op : Op) :
    ((∀ c : Mem.Conn, op.end c = c.receiver) →
      (p.does side op).mem.chan (p.mem.conn side).receiver = (op.on (p.mem.chan (p.mem.conn side).receiver)).1 ∧
      (p.does side op).mem.chan (p.mem.conn side).sender = p.mem.chan (p.mem.conn side).sender ∧
      p.outcome side op = (op.on (p.mem.chan (p.mem.conn side).receiver)).2) ∧
    ((∀ c : Mem.Conn, op.end c = c.sender) →
      (p.does side op).mem.chan (p.mem.conn side).sender = (op.on (p.mem.chan (p.mem.conn side).sender)).1 ∧
      (p.does side op).mem.chan (p.mem.conn side).receiver = p.mem.chan (p.mem.conn side).receiver ∧
      p.outcome side op = (op.on (p.mem.chan (p.mem.conn side).sender)).2) := by
  have hne : (p.mem.conn side).sender ≠ (p.mem.conn side).receiver := by rw [hi]; cases side <;> simp [memory]
  refine ⟨fun h => ?_, fun h => ?_⟩
  · simp [MemSession.Proc.does, MemSession.Proc.outcome, step, h, State.set, hne]
  · simp [MemSession.Proc.does, MemSession.Proc.outcome, step, h, State.set, hne.symm]

/-- How far the server is from its next receive. -/
def rank (a : App) : Nat := match toSend a with | some _ => 2 | none => a.receives.toNat

/-- What the server has still to do. -/
def mwork (side : Side) (p : MemSession.Proc) : Nat :=
  3 * (p.mem.chan (p.mem.conn side).receiver).queue.length + rank p.app +
    (p.mem.chan (p.mem.conn side).sender).senders + (p.mem.chan (p.mem.conn side).receiver).receivers

theorem rank_two (b : App) : rank b ≤ 2 := by
  unfold rank
  split
  · omega
  · cases b.receives <;> simp

theorem rank_sent {b : App} {m : Message} (h : toSend b = some m) (ok : Bool) : rank (onSent b ok) ≤ 1 := by
  have : toSend (onSent b ok) = none := by cases ok <;> cases b <;> simp_all [toSend, onSent]
  unfold rank
  rw [this]
  cases (onSent b ok).receives <;> simp

theorem mwork_decreases {p q : MemSession.Proc} {a : MemSession.Act} (hi : p.mem.conn = memory.conn)
    (h : MemSession.Step side process p a q)
    (ha : a ≠ .tester) (ht : a ≠ .timeout) : mwork side q < mwork side p ∧ q.mem.conn = memory.conn := by
  cases h with
  | tester => exact absurd rfl ha
  | timeout => exact absurd rfl ht
  | @recv m h1 h2 =>
    obtain ⟨h3, h4, h5⟩ := (does_chans (side := side) hi .recv).1 fun _ => rfl
    refine ⟨?_, hi⟩
    have h6 := rank_two (onRecv process p.app (some m))
    have h7 : rank p.app = 1 := by unfold rank; rw [receives_toSend h1, h1]; rfl
    rw [h2] at h5
    show 3 * ((p.does side .recv).mem.chan (p.mem.conn side).receiver).queue.length + rank (onRecv process p.app (some m)) +
      ((p.does side .recv).mem.chan (p.mem.conn side).sender).senders +
      ((p.does side .recv).mem.chan (p.mem.conn side).receiver).receivers < _
    rw [h3, h4, mwork, h7]
    generalize p.mem.chan (p.mem.conn side).receiver = x at h5
    simp only [Op.on, Chan.recv] at h5 ⊢
    split
    · simp_all
    · cases hq : x.queue with
      | nil => simp_all; split at h5 <;> simp at h5
      | cons y r => simp only [List.length_cons]; omega
  | closed h1 h2 =>
    obtain ⟨h3, h4, h5⟩ := (does_chans (side := side) hi .recv).1 fun _ => rfl
    refine ⟨?_, hi⟩
    have h7 : rank p.app = 1 := by unfold rank; rw [receives_toSend h1, h1]; rfl
    obtain ⟨e, he⟩ := onRecv_none (process := process) h1
    rw [h2] at h5
    show 3 * ((p.does side .recv).mem.chan (p.mem.conn side).receiver).queue.length + rank (onRecv process p.app none) +
      ((p.does side .recv).mem.chan (p.mem.conn side).sender).senders +
      ((p.does side .recv).mem.chan (p.mem.conn side).receiver).receivers < _
    rw [h3, h4, mwork, h7, he]
    have : rank (.ended e) = 0 := rfl
    generalize p.mem.chan (p.mem.conn side).receiver = x at h5
    simp only [Op.on, Chan.recv] at h5 ⊢
    split
    · simp_all
    · cases hq : x.queue with
      | nil => simp only [hq]; omega
      | cons y r => simp_all
  | @send m h1 h2 =>
    obtain ⟨h3, h4, h5⟩ := (does_chans (side := side) hi (.send m)).2 fun _ => rfl
    refine ⟨?_, hi⟩
    have h6 := rank_sent h1 true
    have h7 : rank p.app = 2 := by unfold rank; rw [h1]
    show 3 * ((p.does side (.send m)).mem.chan (p.mem.conn side).receiver).queue.length + rank (onSent p.app true) +
      ((p.does side (.send m)).mem.chan (p.mem.conn side).sender).senders +
      ((p.does side (.send m)).mem.chan (p.mem.conn side).receiver).receivers < _
    rw [h3, h4, mwork, h7]
    simp only [Op.on, Chan.send]
    repeat' split
    all_goals simp only
    all_goals omega
  | @unsent m h1 h2 =>
    obtain ⟨h3, h4, h5⟩ := (does_chans (side := side) hi (.send m)).2 fun _ => rfl
    refine ⟨?_, hi⟩
    have h6 := rank_sent h1 false
    have h7 : rank p.app = 2 := by unfold rank; rw [h1]
    show 3 * ((p.does side (.send m)).mem.chan (p.mem.conn side).receiver).queue.length + rank (onSent p.app false) +
      ((p.does side (.send m)).mem.chan (p.mem.conn side).sender).senders +
      ((p.does side (.send m)).mem.chan (p.mem.conn side).receiver).receivers < _
    rw [h3, h4, mwork, h7]
    simp only [Op.on, Chan.send]
    repeat' split
    all_goals simp only
    all_goals omega
  | @dropRx r h1 h2 =>
    obtain ⟨h3, h4, h5⟩ := (does_chans (side := side) hi .dropReceiver).1 fun _ => rfl
    refine ⟨?_, hi⟩
    rw [h2] at h5
    show 3 * ((p.does side .dropReceiver).mem.chan (p.mem.conn side).receiver).queue.length + rank p.app +
      ((p.does side .dropReceiver).mem.chan (p.mem.conn side).sender).senders +
      ((p.does side .dropReceiver).mem.chan (p.mem.conn side).receiver).receivers < _
    rw [h3, h4, mwork]
    generalize p.mem.chan (p.mem.conn side).receiver = x at h5
    simp only [Op.on, Chan.dropReceiver] at h5 ⊢
    split
    · simp_all
    · simp only
      split <;> (try simp only [List.length_nil]) <;> omega
  | @dropTx r h1 h2 =>
    obtain ⟨h3, h4, h5⟩ := (does_chans (side := side) hi .dropSender).2 fun _ => rfl
    refine ⟨?_, hi⟩
    rw [h2] at h5
    show 3 * ((p.does side .dropSender).mem.chan (p.mem.conn side).receiver).queue.length + rank p.app +
      ((p.does side .dropSender).mem.chan (p.mem.conn side).sender).senders +
      ((p.does side .dropSender).mem.chan (p.mem.conn side).receiver).receivers < _
    rw [h3, h4, mwork]
    generalize p.mem.chan (p.mem.conn side).sender = x at h5
    simp only [Op.on, Chan.dropSender] at h5 ⊢
    split
    · simp_all
    · simp only
      omega

theorem mem_cons {p q r : MemSession.Proc} {a : MemSession.Act} {as : List MemSession.Act}
    (h : MemSession.Step side process p a q) (h' : MemSession.Steps side process q as r) :
    MemSession.Steps side process p (a :: as) r := by
  induction h' with
  | nil => exact .snoc (.nil _) h
  | snoc _ h2 ih => exact .snoc (as := a :: _) ih h2

theorem mem_append {p q r : MemSession.Proc} {as bs : List MemSession.Act}
    (h : MemSession.Steps side process p as q) (h' : MemSession.Steps side process q bs r) :
    MemSession.Steps side process p (as ++ bs) r := by
  induction h' with
  | nil => simpa using h
  | snoc _ h2 ih => rw [← List.append_assoc]; exact .snoc ih h2

/-- The tester's part of a history is not changed by the server. -/
theorem tester_part {p q : MemSession.Proc} {a : MemSession.Act} (h : MemSession.Step side process p a q)
    (ha : a ≠ .tester) : Spec.given side q = Spec.given side p ∧ (Spec.Talks side q ↔ Spec.Talks side p) ∧
      (Spec.Listens side q ↔ Spec.Listens side p) := by
  have go : ∀ op, Spec.given side (p.does side op) = Spec.given side p ∧
      (Spec.Talks side (p.does side op) ↔ Spec.Talks side p) ∧
      (Spec.Listens side (p.does side op) ↔ Spec.Listens side p) := fun op => by
    obtain ⟨h1, h2, h3⟩ := own_same (side := side) p op
    exact ⟨h1, by rw [h2], by rw [h3]⟩
  cases h with
  | tester => exact absurd rfl ha
  | timeout => exact ⟨rfl, .rfl, .rfl⟩
  | recv => exact go .recv
  | closed => exact go .recv
  | @send m => exact go (.send m)
  | @unsent m => exact go (.send m)
  | dropRx => exact go .dropReceiver
  | dropTx => exact go .dropSender

/-- C84: left alone, the server comes to rest. -/
theorem C84_settles {p : MemSession.Proc} {as : List MemSession.Act} (h : MemSession.Steps side process {} as p) :
    ∃ bs q, MemSession.Steps side process p bs q ∧ MemSession.Quiet side process q ∧
      (∀ a ∈ bs, a ≠ .tester ∧ a ≠ .timeout) ∧ Spec.given side q = Spec.given side p ∧
      (Spec.Talks side q ↔ Spec.Talks side p) ∧ (Spec.Listens side q ↔ Spec.Listens side p) := by
  have key : ∀ n (p : MemSession.Proc), mwork side p = n → p.mem.conn = memory.conn →
      ∃ bs q, MemSession.Steps side process p bs q ∧ MemSession.Quiet side process q ∧
        (∀ a ∈ bs, a ≠ .tester ∧ a ≠ .timeout) ∧ Spec.given side q = Spec.given side p ∧
        (Spec.Talks side q ↔ Spec.Talks side p) ∧ (Spec.Listens side q ↔ Spec.Listens side p) := by
    intro n
    induction n using Nat.strongRecOn with
    | ind n ih =>
      intro p hn hc
      by_cases hq : MemSession.Quiet side process p
      · exact ⟨[], p, .nil _, hq, by simp, rfl, .rfl, .rfl⟩
      · simp only [MemSession.Quiet, Classical.not_forall, not_or] at hq
        obtain ⟨a, q, h1, h2, h3⟩ := hq
        obtain ⟨h4, h5⟩ := mwork_decreases hc h1 h2 h3
        obtain ⟨bs, r, h6, h7, h8, h9, h10, h11⟩ := ih _ (hn ▸ h4) q rfl h5
        obtain ⟨h12, h13, h14⟩ := tester_part h1 h2
        refine ⟨a :: bs, r, mem_cons h1 h6, h7, ?_, h9.trans h12, h10.trans h13, h11.trans h14⟩
        intro b hb
        rcases List.mem_cons.1 hb with rfl | hb
        · exact ⟨h2, h3⟩
        · exact h8 b hb
  exact key _ p rfl (mem_inv h).mem.conn

/-! ### The same session on a real connection -/

/-- The handshake is over after these messages, and none of them asks for shutdown. -/
def Spec.InLoop (process : InitializeBuild → Option Value) (ms : List Message) : Prop :=
  ∃ early id ip v rest, ms = Spec.session early id ip rest ∧ (∀ r ∈ early, Spec.Early r) ∧ process ip = some v ∧
    Spec.NoShutdown rest

theorem round_states {a : App} (ha : toSend a = none) (m : Message) :
    ((round process a m).1 = .start → a = .start ∧ ∃ r, m = .request r ∧ Spec.Early r) ∧
    ((round process a m).1 = .confirming → a = .start ∧ ∃ id ip v, m = .request (.initializeBuild id ip) ∧
      process ip = some v) ∧
    ((round process a m).1 = .idle → (a = .confirming ∧ m = .notification .initialized) ∨
      (a = .idle ∧ ∀ id, m ≠ .request (.shutdown id))) := by
  rcases rests ha with hr | ⟨r, rfl⟩
  · cases a with
    | start =>
      cases m with
      | request r =>
        cases r with
        | initializeBuild id ip =>
          cases hp : process ip with
          | none => simp [round, onRecv, hp, toSend]
          | some v => simp [round, onRecv, hp, toSend, onSent]; exact ⟨id, ip, ⟨rfl, rfl⟩, v, hp⟩
        | _ => simp [round, onRecv, toSend, onSent, Spec.Early]
      | response r => simp [round, onRecv, toSend]
      | notification n => simp [round, onRecv, toSend]
    | confirming =>
      cases m with
      | request r => simp [round, onRecv, toSend]
      | response r => simp [round, onRecv, toSend]
      | notification n => cases n <;> simp [round, onRecv, toSend]
    | idle =>
      cases m with
      | request r => cases r <;> simp [round, onRecv, toSend, onSent]
      | response r => simp [round, onRecv, toSend]
      | notification n => simp [round, onRecv, toSend]
    | leaving =>
      cases m with
      | request r => simp [round, onRecv, toSend]
      | response r => simp [round, onRecv, toSend]
      | notification n => cases n <;> simp [round, onRecv, toSend]
    | _ => cases hr
  · rw [round_ended]; simp

theorem feed_states (ms : List Message) :
    ((feed process .start ms).1 = .start → ∃ early : List Request, ms = early.map .request ∧ ∀ r ∈ early, Spec.Early r) ∧
    ((feed process .start ms).1 = .confirming → ∃ (early : List Request) (id : RequestId) (ip : InitializeBuild) (v : Value),
      ms = early.map .request ++ [.request (.initializeBuild id ip)] ∧
      (∀ r ∈ early, Spec.Early r) ∧ process ip = some v) ∧
    ((feed process .start ms).1 = .idle → Spec.InLoop process ms) := by
  have key : ∀ (rev : List Message),
    ((feed process .start rev.reverse).1 = .start → ∃ early : List Request, rev.reverse = early.map .request ∧ ∀ r ∈ early, Spec.Early r) ∧
    ((feed process .start rev.reverse).1 = .confirming → ∃ (early : List Request) (id : RequestId) (ip : InitializeBuild) (v : Value),
      rev.reverse = early.map .request ++ [.request (.initializeBuild id ip)] ∧
      (∀ r ∈ early, Spec.Early r) ∧ process ip = some v) ∧
    ((feed process .start rev.reverse).1 = .idle → Spec.InLoop process rev.reverse) := by
    intro rev
    induction rev with
    | nil => exact ⟨fun _ => ⟨[], rfl, by simp⟩, fun h => (by cases h), fun h => (by cases h)⟩
    | cons m rev ih =>
      rw [List.reverse_cons, feed_snoc]
      generalize hms : rev.reverse = ms at *
      obtain ⟨ih1, ih2, ih3⟩ := ih
      obtain ⟨h1, h2, h3⟩ := round_states (process := process)
        (feed_toSend (process := process) (a := .start) rfl ms) m
      refine ⟨fun h => ?_, fun h => ?_, fun h => ?_⟩
      · obtain ⟨h4, r, rfl, h5⟩ := h1 h
        obtain ⟨early, rfl, h6⟩ := ih1 h4
        refine ⟨early ++ [r], by simp, ?_⟩
        intro x hx
        rcases List.mem_append.1 hx with hx | hx
        · exact h6 x hx
        · rw [List.mem_singleton.1 hx]; exact h5
      · obtain ⟨h4, id, ip, v, rfl, h5⟩ := h2 h
        obtain ⟨early, rfl, h6⟩ := ih1 h4
        exact ⟨early, id, ip, v, rfl, h6, h5⟩
      · rcases h3 h with ⟨h4, rfl⟩ | ⟨h4, h5⟩
        · obtain ⟨early, id, ip, v, rfl, h6, h7⟩ := ih2 h4
          exact ⟨early, id, ip, v, [], by simp [Spec.session], h6, h7, by simp [Spec.NoShutdown]⟩
        · obtain ⟨early, id, ip, v, rest, rfl, h6, h7, h8⟩ := ih3 h4
          refine ⟨early, id, ip, v, rest ++ [m], by simp [Spec.session], h6, h7, fun x hx => ?_⟩
          rcases List.mem_append.1 hx with hx | hx
          · exact h8 x hx
          · exact h5 x (List.mem_singleton.1 hx).symm
  have := key ms.reverse
  rwa [List.reverse_reverse] at this


/-- An exit notification that does not come while requests are served ends the server. -/
theorem exit_ends {pre : List Message} (h : ¬ Spec.InLoop process pre) (hr : (feed process .start pre).1.receives = true) :
    ∃ r, (feed process .start (pre ++ [.notification .exit])).1 = .ended r := by
  rw [feed_snoc]
  generalize ha : (feed process .start pre).1 = a at *
  cases a with
  | start => exact ⟨_, rfl⟩
  | confirming => exact ⟨_, rfl⟩
  | leaving => exact ⟨_, rfl⟩
  | idle => exact absurd ((feed_states pre).2.2 ha) h
  | _ => cases hr

variable [FloatText] {k : Transport.Kind}

/-- C84: a test on `Connection::memory` has the outcome of the real process: whatever the schedules, the server that
gets some messages from a tester, and the process that gets them over stdio or a socket, at rest have received the same
messages, sent the same messages, and are at the same point or have ended in the same way.  (Of the exit notification
it is supposed that it does not come while requests are served, or else is the last message before the end.) -/
theorem C84_same {p : MemSession.Proc} {as : List MemSession.Act} (h : MemSession.Steps side process {} as p)
    (hl : Spec.Listens side p) (ht : MemSession.Act.timeout ∉ as) (hq : MemSession.Quiet side process p)
    {q : Session.Proc} {bs : List Session.Act} (h' : Session.Steps k process {} bs q)
    (hw' : Session.Act.writeFails ∉ bs) (ht' : Session.Act.timeout ∉ bs) (hq' : Session.Quiet k process q)
    {bytes : Bytes} {ends : Option Bool} (hf : Spec.Fed q bytes ends)
    (hc : Spec.Carries bytes (Spec.given side p)) (he : ends = none ↔ Spec.Talks side p) (he' : ends ≠ some true)
    (hx : ∀ pre post, Spec.given side p = pre ++ .notification .exit :: post →
      (post = [] ∧ ¬ Spec.Talks side p) ∨ ¬ Spec.InLoop process pre) :
    q.io.delivered = Spec.received side p ∧ q.io.accepted = Spec.replied side p ∧ q.app = p.app ∧
    (q.exit = none ↔ p.app.receives = true) ∧ (q.exit = some true ↔ p.app = .ended (.ok ())) := by
  have F := final h' hw' ht' hq' hf
  obtain ⟨m1, m2, m3⟩ := mem_rest h hl ht hq
  have hrg := (C84_sent h).1
  have hall : ∀ b, (Frame.readAll (⟨bytes, b⟩ : Frame.Flat)) = (Spec.given side p, if b then .ioError else .eof) := by
    intro b
    have := readAll_carries hc [] b
    rw [List.append_nil] at this
    rw [this, readAll_eq]
    cases b
    · rw [readMsg_nil.1]; simp
    · rw [readMsg_nil.2]; simp
  have hgot : q.io.delivered <+: Spec.given side p := by
    have := F.got false
    simp only [Spec.stream, hall] at this
    exact this
  have hin : ∀ d stop, Spec.Input (Spec.stream bytes ends) d stop → d = Spec.given side p ∧ stop = .eof ∧ ends = some false := by
    intro d stop hi
    cases ends with
    | none =>
      have h1 : ∀ more b, Frame.readAll (⟨bytes ++ more, b⟩ : Frame.Flat) = (d, stop) := hi
      have h2 := h1 [] false
      have h3 := h1 [] true
      rw [List.append_nil, hall] at h2 h3
      rw [← h2] at h3
      simp at h3
    | some b =>
      cases b with
      | true => exact absurd rfl he'
      | false =>
        have h1 : Frame.readAll (⟨bytes, false⟩ : Frame.Flat) = (d, stop) := hi
        rw [hall] at h1
        cases h1
        exact ⟨rfl, rfl, rfl⟩
  have hexit : ∀ d, d <+: Spec.given side p → Message.notification .exit ∈ d →
      (∀ ms m, ms ++ [m] <+: d → (feed process .start ms).1.receives = true) →
      (feed process .start d).1.receives = true → d = Spec.given side p ∧ ¬ Spec.Talks side p := by
    intro d hd hm hr hrd
    obtain ⟨pre, post, rfl⟩ := List.append_of_mem hm
    obtain ⟨t, ht⟩ := hd
    rcases hx pre (post ++ t) (by rw [← ht]; simp) with ⟨h1, h2⟩ | h1
    · obtain ⟨rfl, rfl⟩ := List.append_eq_nil_iff.1 h1
      exact ⟨by rw [← ht]; simp, h2⟩
    · exfalso
      obtain ⟨r, h2⟩ := exit_ends h1 (hr pre (.notification .exit) ⟨post, by simp⟩)
      have h3 : feed process .start (pre ++ .notification .exit :: post) = feed process .start (pre ++ [.notification .exit] ++ post) := by simp
      rw [h3, feed_append, h2, feed_ended] at hrd
      cases hrd
  have hdel : q.io.delivered = Spec.received side p := by
    apply Classical.byContradiction
    intro hne
    have hlen : (∃ m, q.io.delivered ++ [m] <+: Spec.received side p) ∨ (∃ m, Spec.received side p ++ [m] <+: q.io.delivered) := by
      rcases List.prefix_or_prefix_of_prefix hgot hrg with ⟨t, h⟩ | ⟨t, h⟩
      · cases t with
        | nil => rw [List.append_nil] at h; exact absurd h hne
        | cons m t => exact .inl ⟨m, t, by rw [← h]; simp⟩
      · cases t with
        | nil => rw [List.append_nil] at h; exact absurd h.symm hne
        | cons m t => exact .inr ⟨m, t, by rw [← h]; simp⟩
    rcases hlen with ⟨m, hm⟩ | ⟨m, hm⟩
    · have hr := m2 _ _ hm
      have hlt := (hm.trans hrg).length_le
      have hns : q.io.delivered ≠ Spec.given side p := by
        intro h
        rw [h] at hlt
        simp at hlt
        omega
      cases hex : q.exit with
      | none =>
        have := ((F.waits hex).2.2.2 bytes _ [] (by simp [Spec.stream]) hc).length_le
        simp at hlt
        omega
      | some b =>
        rcases (F.over b hex).1 with ⟨r, h1, _⟩ | ⟨_, _, h1 | ⟨stop, h1⟩⟩
        · rw [h1] at hr; cases hr
        · exact hns (hexit _ hgot h1 (fun ms m h => (F.ready ms m h).1) hr).1
        · exact hns (hin _ _ h1).1
    · have hr := (F.ready _ _ hm).1
      rcases m3 with ⟨r, h1, _⟩ | ⟨_, h1, _⟩
      · rw [h1] at hr; cases hr
      · have := (hm.trans hgot).length_le
        rw [h1] at this
        simp at this
        omega
  have hacc : q.io.accepted = Spec.replied side p := by rw [F.sent, hdel, m1]
  have hat := (mainInv h').at' (no_fail h' hw')
  have hready := m2
  cases hex : q.exit with
  | none =>
    obtain ⟨w1, w2, w3, w4⟩ := F.waits hex
    have hrec : q.app.receives = true := by
      rcases C71_nothing_pending h' hw' hq' with ⟨b, h1⟩ | ⟨h1, _⟩
      · rw [hex] at h1; cases h1
      · exact h1
    have happ : q.app = (feed process .start q.io.delivered).1 := by
      cases hat with
      | rest h1 _ => exact h1
      | sending h1 _ _ => rw [toSend_receives h1] at hrec; cases hrec
      | closed h1 h2 _ _ _ =>
        obtain ⟨r, h3⟩ := onRecv_none (process := process) h1
        rw [h2, h3] at hrec; cases hrec
      | late _ h1 _ _ => rw [h1] at hrec; cases hrec
    have hpa : p.app = q.app := by
      rw [happ, hdel]
      rw [hdel] at w1
      rcases m3 with ⟨r, h1, _⟩ | ⟨_, h1, ⟨_, h2⟩ | ⟨h2, h3⟩⟩
      · rw [h1] at w1; cases w1
      · exact h2
      · exfalso
        have hne : ends ≠ none := fun h => h2 (he.1 h)
        have hes : ends = some false := by
          cases ends with
          | none => exact absurd rfl hne
          | some b => cases b <;> simp_all
        apply w3 .eof
        rw [hdel, h1, hes]
        exact hall false
    refine ⟨hdel, hacc, hpa.symm, ?_, ?_⟩
    · rw [hpa]; simp [hrec]
    · rw [hpa]
      refine ⟨fun h => by simp at h, fun h => ?_⟩
      rw [h] at hrec; cases hrec
  | some b =>
    obtain ⟨o1, o2⟩ := F.over b hex
    have hpa : p.app = q.app ∧ ∃ r, p.app = .ended r := by
      rcases o1 with ⟨r, h1, h2⟩ | ⟨h1, h2, h3⟩
      · rw [hdel] at h1
        rcases m3 with ⟨r', h4, h5⟩ | ⟨h4, _⟩
        · rw [h1] at h4; cases h4; exact ⟨h5.trans h2.symm, r, h5⟩
        · rw [h1] at h4; cases h4
      · rw [hdel] at h1 h2 h3
        have hnt : ¬ Spec.Talks side p := by
          rcases h3 with h3 | ⟨stop, h3⟩
          · exact (hexit _ hrg h3 m2 h1).2
          · intro h
            have := (hin _ _ h3).2.2
            rw [he.2 h] at this; cases this
        rcases m3 with ⟨r', h4, h5⟩ | ⟨_, _, ⟨h4, _⟩ | ⟨_, h4⟩⟩
        · rw [h4] at h1; cases h1
        · exact absurd h4 hnt
        · obtain ⟨r, h5⟩ := onRecv_none (process := process) h1
          exact ⟨h4.trans h2.symm, r, h4.trans h5⟩
    obtain ⟨hpa, r, hr⟩ := hpa
    refine ⟨hdel, hacc, hpa.symm, by simp [hr, App.receives], ?_⟩
    rw [hpa]
    constructor
    · intro h
      cases h
      exact (o2.1 rfl).1
    · intro h
      rw [o2.2 ⟨h, ?_⟩]
      rcases o1 with ⟨r, h1, h2⟩ | ⟨h1, h2, h3⟩
      · left
        rw [h] at h2
        cases h2
        exact ended_ok h1
      · rcases h3 with h3 | ⟨stop, h3⟩
        · exact .inl h3
        · right
          have := (hin _ _ h3).2.1
          rw [← this]; exact h3

/-- C84: they differ when the exit notification comes while requests are served.  The thread that reads stdio or a
socket stops at the notification, so that the process gets nothing more and ends; the server on `Connection::memory`
goes on and gets what comes after it. -/
theorem C84_differs {p : MemSession.Proc} {as : List MemSession.Act} (h : MemSession.Steps side process {} as p)
    (hl : Spec.Listens side p) (hk : Spec.Talks side p) (ht : MemSession.Act.timeout ∉ as)
    (hq : MemSession.Quiet side process p)
    {q : Session.Proc} {bs : List Session.Act} (h' : Session.Steps k process {} bs q)
    (hw' : Session.Act.writeFails ∉ bs) (ht' : Session.Act.timeout ∉ bs) (hq' : Session.Quiet k process q)
    {bytes : Bytes} {ends : Option Bool} (hf : Spec.Fed q bytes ends) (hc : Spec.Carries bytes (Spec.given side p))
    {pre post : List Message} (hg : Spec.given side p = pre ++ .notification .exit :: post)
    (hpre : Message.notification .exit ∉ pre) (hin : Spec.InLoop process (Spec.given side p)) :
    (Spec.received side p = pre ++ .notification .exit :: post ∧ p.app.receives = true) ∧
    (q.io.delivered = pre ++ [.notification .exit] ∧ q.exit ≠ none) := by
  have F := final h' hw' ht' hq' hf
  obtain ⟨m1, m2, m3⟩ := mem_rest h hl ht hq
  have hrg := (C84_sent h).1
  have hidle : (feed process .start (Spec.given side p)).1 = .idle := by
    obtain ⟨early, id, ip, v, rest, h1, h2, h3, h4⟩ := hin
    rw [h1, feed_session h2 h3 h4]
  have halive : ∀ d, d <+: Spec.given side p → ∀ r, (feed process .start d).1 ≠ .ended r := fun d hd =>
    feed_alive hd fun r h => by rw [hidle] at h; cases h
  have hgot : q.io.delivered <+: Spec.given side p := by
    have h1 := F.got false
    have h2 := readAll_carries hc [] false
    rw [List.append_nil, readAll_eq (⟨[], false⟩ : Frame.Flat), readMsg_nil.1] at h2
    simp only [Spec.stream, h2] at h1
    simpa using h1
  refine ⟨?_, ?_⟩
  · rcases m3 with ⟨r, h1, _⟩ | ⟨h1, h2, ⟨_, h3⟩ | ⟨h3, _⟩⟩
    · exact absurd h1 (halive _ hrg r)
    · exact ⟨h2.trans hg, h3 ▸ h1⟩
    · exact absurd hk h3
  · have hle : q.io.delivered <+: pre ++ [.notification .exit] := by
      rw [hg] at hgot
      have h1 : pre ++ [Message.notification .exit] <+: pre ++ .notification .exit :: post := ⟨post, by simp⟩
      rcases List.prefix_or_prefix_of_prefix hgot h1 with h2 | ⟨t, h2⟩
      · exact h2
      · cases t with
        | nil => rw [← h2]; simp
        | cons m t =>
          exact absurd (by simp) (F.ready (pre ++ [.notification .exit]) m ⟨t, by rw [← h2]; simp⟩).2
    have heq : q.io.delivered = pre ++ [.notification .exit] := by
      obtain ⟨t, h1⟩ := hle
      rcases List.eq_nil_or_concat t with rfl | ⟨t', m, rfl⟩
      · simpa using h1
      · exfalso
        have h2 : q.io.delivered ++ t' = pre ∧ m = .notification .exit := by
          rw [List.concat_eq_append, ← List.append_assoc] at h1
          have := List.append_inj' h1 rfl
          exact ⟨this.1, by simpa using this.2⟩
        have hlen : q.io.delivered.length ≤ pre.length := by rw [← h2.1]; simp
        have hlt : q.io.delivered ≠ Spec.given side p := by
          intro h3
          rw [h3, hg] at hlen
          simp at hlen
          omega
        cases hex : q.exit with
        | none =>
          have := ((F.waits hex).2.2.2 bytes _ [] (by simp [Spec.stream]) hc).length_le
          rw [hg] at this
          simp at this
          omega
        | some b =>
          rcases (F.over b hex).1 with ⟨r, h3, _⟩ | ⟨_, _, h3 | ⟨stop, h3⟩⟩
          · exact halive _ hgot r h3
          · exact hpre (h2.1 ▸ List.mem_append_left _ h3)
          · apply hlt
            have h4 : ∃ b, Frame.readAll (⟨bytes, b⟩ : Frame.Flat) = (q.io.delivered, stop) := by
              cases ends with
              | none =>
                have h3 := (h3 : ∀ more b, Frame.readAll (⟨bytes ++ more, b⟩ : Frame.Flat) = _) [] false
                rw [List.append_nil] at h3
                exact ⟨false, h3⟩
              | some b => exact ⟨b, h3⟩
            obtain ⟨b, h4⟩ := h4
            have h5 := readAll_carries hc [] b
            rw [List.append_nil, h4, readAll_eq] at h5
            cases b
            · rw [readMsg_nil.1] at h5; simpa using congrArg Prod.fst h5
            · rw [readMsg_nil.2] at h5; simpa using congrArg Prod.fst h5
    refine ⟨heq, fun hex => ?_⟩
    exact (F.waits hex).2.1 (by rw [heq]; simp)

omit [FloatText] in
/-- C84: whatever the tester sends, there is such a run. -/
theorem C84_exists (side : Side) (process : InitializeBuild → Option Value) (ms : List Message) (talks : Bool) :
    ∃ as p, MemSession.Steps side process {} as p ∧ MemSession.Quiet side process p ∧ MemSession.Act.timeout ∉ as ∧
      Spec.Listens side p ∧ (Spec.Talks side p ↔ talks = true) ∧ Spec.given side p = ms := by
  have key : ∀ ms : List Message, ∃ as p, MemSession.Steps side process {} as p ∧ (∀ a ∈ as, a = .tester) ∧
      Spec.receivers side.other 1 p.seen = 1 ∧ Spec.senders side.other 1 p.seen = 1 ∧
      Spec.receivers side 1 p.seen = 1 ∧ Spec.given side p = ms := by
    intro ms
    generalize hr : ms.reverse = rs
    induction rs generalizing ms with
    | nil =>
      have : ms = [] := by simpa using hr
      subst this
      exact ⟨[], {}, .nil _, by simp, rfl, rfl, rfl, rfl⟩
    | cons m rs ih =>
      obtain ⟨as, p, h1, h2, h3, h4, h5, h6⟩ := ih rs.reverse (by simp)
      have hi := (mem_inv h1).mem
      have ho : p.outcome side.other (.send m) = .sent m := by
        obtain ⟨x, hx, _, h8⟩ := chan_from hi side.other
        have h8 : p.outcome side.other (.send m) = (Chan.send x m).2 := h8 (.send m) (fun _ => rfl)
        rw [other_other] at hx
        rw [h8]
        unfold Chan.send
        rw [if_neg (by rw [hx.senders, h4]; simp), if_neg (by rw [hx.receivers, h5]; simp)]
      have hms : ms = rs.reverse ++ [m] := by
        rw [← List.reverse_reverse ms, hr]; simp
      refine ⟨_, _, .snoc h1 (.tester p (.send m)), by grind, ?_, ?_, ?_, ?_⟩
      · rw [does_seen, ho, receivers_append, h3]; rfl
      · rw [does_seen, ho, senders_append, h4]; rfl
      · rw [does_seen, ho, receivers_append, h5]; rfl
      · rw [Spec.given, does_seen, ho, sentBy_append, ← Spec.given, h6, hms]; simp [Spec.sentBy]
  obtain ⟨as, p, h1, h2, h3, h4, h5, h6⟩ := key ms
  have key2 : ∃ as p, MemSession.Steps side process {} as p ∧ (∀ a ∈ as, a = .tester) ∧ Spec.Listens side p ∧
      (Spec.Talks side p ↔ talks = true) ∧ Spec.given side p = ms := by
    cases talks with
    | true => exact ⟨as, p, h1, h2, by rw [Spec.Listens, h3]; omega, by simp [Spec.Talks, h4], h6⟩
    | false =>
      have hi := (mem_inv h1).mem
      have ho : p.outcome side.other .dropSender = .droppedSender := by
        obtain ⟨x, hx, _, h8⟩ := chan_from hi side.other
        have h8 : p.outcome side.other .dropSender = (Chan.dropSender x).2 := h8 .dropSender (fun _ => rfl)
        rw [h8]
        unfold Chan.dropSender
        rw [if_neg (by rw [hx.senders, h4]; simp)]
      refine ⟨_, _, .snoc h1 (.tester p .dropSender), by grind, ?_, ?_, ?_⟩
      · rw [Spec.Listens, does_seen, ho, receivers_append, h3]; simp [Spec.receivers]
      · rw [Spec.Talks, does_seen, ho, senders_append, h4]; simp [Spec.senders]
      · rw [Spec.given, does_seen, ho, sentBy_append, ← Spec.given, h6]; simp [Spec.sentBy]
  obtain ⟨as, p, h1, h2, h3, h4, h5⟩ := key2
  obtain ⟨bs, q, g1, g2, g3, g4, g5, g6⟩ := C84_settles h1
  refine ⟨_, q, mem_append h1 g1, g2, ?_, g6.2 h3, g5.trans h4, g4.trans h5⟩
  intro hm
  rcases List.mem_append.1 hm with hm | hm
  · cases h2 _ hm
  · exact (g3 _ hm).2 rfl

end

/-! ### Concrete cases -/

section
attribute [local instance] Ext.sample FloatText.sample Dbg.sample

/-- Beside C84 (same, sent, rest, settles): the sample conversation and leave, tested on `Connection::memory` and run
on stdio. -/
example (side : Side) : ∃ as p bs q, MemSession.Steps side sampleHandler {} as p ∧
    Session.Steps .stdio sampleHandler {} bs q ∧ p.app = .ended (.ok ()) ∧ q.exit = some true ∧
    q.io.accepted = Spec.replied side p ∧ Spec.replied side p = Spec.answers sampleHandler (Spec.received side p) := by
  obtain ⟨as, p, h1, h2, h3, h4, h5, h6⟩ := C84_exists side sampleHandler ((sampleTalk ++ sampleLeave).map (·.2)) true
  obtain ⟨bs, q, g1, g2, g3, g4, g5, g6⟩ := settle .stdio sampleHandler (framed (sampleTalk ++ sampleLeave))
  have hx : q.exit = some true := (C73_session (id := .i32 1) (sid := .i32 3) (ip := sampleInit)
    (v := .ofJson (.str "c")) (early := [.workspaceReload (.str "a")])
    (pre := [.request (.workspaceBuildTargets (.i32 2)), .notification .initialized]) (rest := []) g1 g2 g3 g4
    (by rw [g5]; simp) sampleTalk_carries.2 (by simp [Spec.Early]) rfl (by simp [Spec.NoShutdown]) (by simp)).1
  obtain ⟨_, a2, _, _, a5⟩ := C84_same h1 h4 h3 h2 g1 g2 g3 g4 (bytes := framed (sampleTalk ++ sampleLeave))
    (ends := none) (.inl ⟨g5, g6⟩) (by rw [h6]; exact sampleTalk_carries.2) (by simp [h5]) (by simp) (by
      intro pre post hp
      right
      rw [h6] at hp
      rintro ⟨early, id, ip, v, rest, e1, e2, e3, e4⟩
      have e5 : (feed sampleHandler .start pre).1 = .idle := by rw [e1, feed_session e2 e3 e4]
      have e6 : pre = (sampleTalk.map (·.2)) ++ [.request (.shutdown (.i32 3))] := by
        simp only [sampleTalk, sampleLeave, List.map_append, List.map_cons, List.map_nil] at hp ⊢
        clear e1 e5
        iterate 6 (rcases pre with _ | ⟨_, pre⟩ <;> simp at hp; try obtain ⟨rfl, hp⟩ := hp)
        simp
        rcases pre with _ | ⟨_, pre⟩ <;> simp at hp ⊢
      rw [e6] at e5
      cases e5)
  exact ⟨as, p, bs, q, h1, g1, a5.1 hx, hx, a2, (C84_rest h1 h4 h3 h2).1⟩

/-- Beside C84_never_waits_to_send: the tester asks for something before build/initialize. -/
example (side : Side) : ∃ as p m, MemSession.Steps side sampleHandler {} as p ∧ toSend p.app = some m ∧
    ∃ q, MemSession.Step side sampleHandler p .main q := by
  let m0 : Message := .request (.workspaceReload (.str "a"))
  let p1 : MemSession.Proc := ({} : MemSession.Proc).does side.other (.send m0)
  have h1 : MemSession.Steps side sampleHandler {} [.tester] p1 := .snoc (.nil _) (.tester _ _)
  have h2 : p1.outcome side .recv = .received m0 := by cases side <;> rfl
  have h3 := MemSession.Steps.snoc h1 (MemSession.Step.recv (p := p1) (process := sampleHandler) rfl h2)
  exact ⟨_, _, _, h3, rfl, C84_never_waits_to_send h3 rfl⟩

/-- Beside C84_differs: the sample conversation, the exit notification, and a request. -/
example (side : Side) : ∃ as p bs q, MemSession.Steps side sampleHandler {} as p ∧
    Session.Steps .stdio sampleHandler {} bs q ∧ p.app.receives = true ∧ q.exit ≠ none ∧
    Spec.received side p = q.io.delivered ++ [.request (.workspaceReload (.str "a"))] := by
  obtain ⟨as, p, h1, h2, h3, h4, h5, h6⟩ := C84_exists side sampleHandler
    ((sampleTalk ++ [sampleLeave[1], sampleTalk[0]]).map (·.2)) true
  obtain ⟨bs, q, g1, g2, g3, g4, g5, g6⟩ := settle .stdio sampleHandler
    (framed (sampleTalk ++ [sampleLeave[1], sampleTalk[0]]))
  have hg : Spec.given side p = sampleTalk.map (·.2) ++ .notification .exit :: [.request (.workspaceReload (.str "a"))] := by
    rw [h6]; rfl
  obtain ⟨⟨a1, a2⟩, a3, a4⟩ := C84_differs h1 h4 (h5.2 rfl) h3 h2 g1 g2 g3 g4
    (bytes := framed (sampleTalk ++ [sampleLeave[1], sampleTalk[0]])) (ends := none) (.inl ⟨g5, g6⟩)
    (by rw [h6]; exact carries_framed fun x hx => sampleTalk_ok x (by simp [sampleTalk, sampleLeave] at hx ⊢; grind))
    hg (by simp [sampleTalk])
    ⟨[.workspaceReload (.str "a")], .i32 1, sampleInit, .ofJson (.str "c"),
      [.request (.workspaceBuildTargets (.i32 2)), .notification .initialized, .notification .exit,
        .request (.workspaceReload (.str "a"))], by rw [hg]; rfl, by simp [Spec.Early], rfl, by simp [Spec.NoShutdown]⟩
  exact ⟨as, p, bs, q, h1, g1, a2, a4, by rw [a1, a3]; simp⟩

end

end Bsp
