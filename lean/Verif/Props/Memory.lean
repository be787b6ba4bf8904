/-
C50: the in-memory pair of connections.
-/
import Verif.Memory

namespace Bsp
open Mem

section
variable [Ext]

/-! ### Specification: everything in terms of what happened -/

/-- The messages a side has sent. -/
def Spec.sentBy (side : Side) : List (Side × Ev) → List Message
  | [] => []
  | (s, .sent m) :: t => if s = side then m :: Spec.sentBy side t else Spec.sentBy side t
  | _ :: t => Spec.sentBy side t

/-- The messages a side has received. -/
def Spec.receivedBy (side : Side) : List (Side × Ev) → List Message
  | [] => []
  | (s, .received m) :: t => if s = side then m :: Spec.receivedBy side t else Spec.receivedBy side t
  | _ :: t => Spec.receivedBy side t

/-- How the number of sending handles of a side changes. -/
def Spec.senders (side : Side) (n : Nat) : List (Side × Ev) → Nat
  | [] => n
  | (s, .clonedSender) :: t => Spec.senders side (if s = side then n + 1 else n) t
  | (s, .droppedSender) :: t => Spec.senders side (if s = side then n - 1 else n) t
  | _ :: t => Spec.senders side n t

/-- How the number of receiving handles of a side changes. -/
def Spec.receivers (side : Side) (n : Nat) : List (Side × Ev) → Nat
  | [] => n
  | (s, .clonedReceiver) :: t => Spec.receivers side (if s = side then n + 1 else n) t
  | (s, .droppedReceiver) :: t => Spec.receivers side (if s = side then n - 1 else n) t
  | _ :: t => Spec.receivers side n t

theorem sentBy_append (side : Side) (a b : List (Side × Ev)) :
    Spec.sentBy side (a ++ b) = Spec.sentBy side a ++ Spec.sentBy side b := by
  induction a with
  | nil => rfl
  | cons x a ih =>
    obtain ⟨s, e⟩ := x
    cases e <;> simp only [List.cons_append, Spec.sentBy, ih]
    split <;> simp

theorem receivedBy_append (side : Side) (a b : List (Side × Ev)) :
    Spec.receivedBy side (a ++ b) = Spec.receivedBy side a ++ Spec.receivedBy side b := by
  induction a with
  | nil => rfl
  | cons x a ih =>
    obtain ⟨s, e⟩ := x
    cases e <;> simp only [List.cons_append, Spec.receivedBy, ih]
    split <;> simp

theorem senders_append (side : Side) (n : Nat) (a b : List (Side × Ev)) :
    Spec.senders side n (a ++ b) = Spec.senders side (Spec.senders side n a) b := by
  induction a generalizing n with
  | nil => rfl
  | cons x a ih =>
    obtain ⟨s, e⟩ := x
    cases e <;> simp only [List.cons_append, Spec.senders, ih]

theorem receivers_append (side : Side) (n : Nat) (a b : List (Side × Ev)) :
    Spec.receivers side n (a ++ b) = Spec.receivers side (Spec.receivers side n a) b := by
  induction a generalizing n with
  | nil => rfl
  | cons x a ih =>
    obtain ⟨s, e⟩ := x
    cases e <;> simp only [List.cons_append, Spec.receivers, ih]

theorem run_append (s : State) (a b : List (Side × Op)) :
    run s (a ++ b) = ((run (run s a).1 b).1, (run s a).2 ++ (run (run s a).1 b).2) := by
  induction a generalizing s with
  | nil => rfl
  | cons x a ih => obtain ⟨side, op⟩ := x; simp [run, ih]

/-- What is known of a channel from `a` to `b` after `tr` has happened. -/
structure ChanInv (x : Chan) (a b : Side) (tr : List (Side × Ev)) : Prop where
  senders : x.senders = Spec.senders a 1 tr
  receivers : x.receivers = Spec.receivers b 1 tr
  queue : ∃ lost, Spec.sentBy a tr = Spec.receivedBy b tr ++ x.queue ++ lost ∧
    (0 < Spec.receivers b 1 tr → lost = [])

/-- An operation of the sending side. -/
theorem chan_sender {x : Chan} {a b : Side} {tr : List (Side × Ev)} (h : ChanInv x a b tr)
    (op : Op) (hop : ∀ c : Conn, op.end c = c.sender) :
    ChanInv (op.on x).1 a b (tr ++ [(a, (op.on x).2)]) := by
  obtain ⟨h1, h2, lost, h3, h4⟩ := h
  have done : ∀ e, (e = Ev.gone ∨ ∃ m, e = .sendFailed m) → ChanInv x a b (tr ++ [(a, e)]) := by
    intro e he
    rcases he with rfl | ⟨m, rfl⟩
    all_goals
      exact ⟨by simp [senders_append, Spec.senders, h1], by simp [receivers_append, Spec.receivers, h2], lost,
        by simp [sentBy_append, receivedBy_append, Spec.sentBy, Spec.receivedBy, h3],
        by simpa [receivers_append, Spec.receivers] using h4⟩
  cases op with
  | send m =>
    simp only [Op.on, Chan.send]
    split
    · exact done _ (.inl rfl)
    · split
      · exact done _ (.inr ⟨m, rfl⟩)
      · rename_i h5 h6
        have : lost = [] := h4 (by omega)
        subst this
        exact ⟨by simp [senders_append, Spec.senders, h1], by simp [receivers_append, Spec.receivers, h2], [],
          by simp [sentBy_append, receivedBy_append, Spec.sentBy, Spec.receivedBy, h3], by simp⟩
  | cloneSender =>
    simp only [Op.on, Chan.cloneSender]
    split
    · exact done _ (.inl rfl)
    · exact ⟨by simp [senders_append, Spec.senders, h1], by simp [receivers_append, Spec.receivers, h2], lost,
        by simp [sentBy_append, receivedBy_append, Spec.sentBy, Spec.receivedBy, h3],
        by simpa [receivers_append, Spec.receivers] using h4⟩
  | dropSender =>
    simp only [Op.on, Chan.dropSender]
    split
    · exact done _ (.inl rfl)
    · exact ⟨by simp [senders_append, Spec.senders, h1], by simp [receivers_append, Spec.receivers, h2], lost,
        by simp [sentBy_append, receivedBy_append, Spec.sentBy, Spec.receivedBy, h3],
        by simpa [receivers_append, Spec.receivers] using h4⟩
  | recv => exact absurd (hop ⟨true, false⟩) (by simp [Op.end])
  | cloneReceiver => exact absurd (hop ⟨true, false⟩) (by simp [Op.end])
  | dropReceiver => exact absurd (hop ⟨true, false⟩) (by simp [Op.end])

/-- An operation of the receiving side. -/
theorem chan_receiver {x : Chan} {a b : Side} {tr : List (Side × Ev)} (h : ChanInv x a b tr)
    (op : Op) (hop : ∀ c : Conn, op.end c = c.receiver) :
    ChanInv (op.on x).1 a b (tr ++ [(b, (op.on x).2)]) := by
  obtain ⟨h1, h2, lost, h3, h4⟩ := h
  have done : ∀ e, (e = Ev.gone ∨ e = .disconnected ∨ e = .empty) → ChanInv x a b (tr ++ [(b, e)]) := by
    intro e he
    rcases he with rfl | rfl | rfl
    all_goals
      exact ⟨by simp [senders_append, Spec.senders, h1], by simp [receivers_append, Spec.receivers, h2], lost,
        by simp [sentBy_append, receivedBy_append, Spec.sentBy, Spec.receivedBy, h3],
        by simpa [receivers_append, Spec.receivers] using h4⟩
  cases op with
  | recv =>
    simp only [Op.on, Chan.recv]
    split
    · exact done _ (.inl rfl)
    · split
      · rename_i m r hq
        exact ⟨by simp [senders_append, Spec.senders, h1], by simp [receivers_append, Spec.receivers, h2], lost,
          by simp [sentBy_append, receivedBy_append, Spec.sentBy, Spec.receivedBy, h3, hq],
          by simpa [receivers_append, Spec.receivers] using h4⟩
      · split
        · exact done _ (.inr (.inl rfl))
        · exact done _ (.inr (.inr rfl))
  | cloneReceiver =>
    simp only [Op.on, Chan.cloneReceiver]
    split
    · exact done _ (.inl rfl)
    · exact ⟨by simp [senders_append, Spec.senders, h1], by simp [receivers_append, Spec.receivers, h2], lost,
        by simp [sentBy_append, receivedBy_append, Spec.sentBy, Spec.receivedBy, h3],
        fun _ => h4 (by omega)⟩
  | dropReceiver =>
    simp only [Op.on, Chan.dropReceiver]
    split
    · exact done _ (.inl rfl)
    · refine ⟨by simp [senders_append, Spec.senders, h1], by simp [receivers_append, Spec.receivers, h2], ?_⟩
      simp only [sentBy_append, receivedBy_append, receivers_append, Spec.sentBy, Spec.receivedBy,
        Spec.receivers, if_true, List.append_nil]
      split
      · exact ⟨x.queue ++ lost, by simp [h3], fun h => by omega⟩
      · exact ⟨lost, h3, fun h => h4 (by omega)⟩
  | send => exact absurd (hop ⟨true, false⟩) (by simp [Op.end])
  | cloneSender => exact absurd (hop ⟨true, false⟩) (by simp [Op.end])
  | dropSender => exact absurd (hop ⟨true, false⟩) (by simp [Op.end])

theorem sender_ev (op : Op) (y : Chan) (hop : ∀ c : Conn, op.end c = c.sender) :
    (op.on y).2 = .gone ∨ (∃ m, (op.on y).2 = .sent m) ∨ (∃ m, (op.on y).2 = .sendFailed m) ∨
      (op.on y).2 = .clonedSender ∨ (op.on y).2 = .droppedSender := by
  have := hop ⟨true, false⟩
  cases op <;> simp only [Op.end, Bool.false_eq_true] at this
  · simp only [Op.on, Chan.send]; repeat' split
    all_goals simp
  · simp only [Op.on, Chan.cloneSender]; split <;> simp
  · simp only [Op.on, Chan.dropSender]; split <;> simp

theorem receiver_ev (op : Op) (y : Chan) (hop : ∀ c : Conn, op.end c = c.receiver) :
    (op.on y).2 = .gone ∨ (∃ m, (op.on y).2 = .received m) ∨ (op.on y).2 = .empty ∨
      (op.on y).2 = .disconnected ∨ (op.on y).2 = .clonedReceiver ∨ (op.on y).2 = .droppedReceiver := by
  have := hop ⟨true, false⟩
  cases op <;> simp only [Op.end, Bool.true_eq_false] at this
  · simp only [Op.on, Chan.recv]; repeat' split
    all_goals simp
  · simp only [Op.on, Chan.cloneReceiver]; split <;> simp
  · simp only [Op.on, Chan.dropReceiver]; split <;> simp

/-- Events of a sending operation do not concern the channel in the other direction, and vice versa. -/
theorem chan_other {x : Chan} {a b : Side} {tr : List (Side × Ev)} (h : ChanInv x a b tr) (hab : a ≠ b)
    (op : Op) (y : Chan) (side : Side)
    (hop : (side = b ∧ ∀ c : Conn, op.end c = c.sender) ∨ (side = a ∧ ∀ c : Conn, op.end c = c.receiver)) :
    ChanInv x a b (tr ++ [(side, (op.on y).2)]) := by
  obtain ⟨h1, h2, lost, h3, h4⟩ := h
  have hba : b ≠ a := fun h => hab h.symm
  rcases hop with ⟨rfl, hop⟩ | ⟨rfl, hop⟩
  · rcases sender_ev op y hop with h | ⟨m, h⟩ | ⟨m, h⟩ | h | h <;> rw [h] <;>
    exact ⟨by simp [senders_append, Spec.senders, h1, hba], by simp [receivers_append, Spec.receivers, h2],
      lost, by simp [sentBy_append, receivedBy_append, Spec.sentBy, Spec.receivedBy, h3, hba],
      by simpa [receivers_append, Spec.receivers] using h4⟩
  · rcases receiver_ev op y hop with h | ⟨m, h⟩ | h | h | h | h <;> rw [h] <;>
    exact ⟨by simp [senders_append, Spec.senders, h1], by simp [receivers_append, Spec.receivers, h2, hab],
      lost, by simp [sentBy_append, receivedBy_append, Spec.sentBy, Spec.receivedBy, h3, hab],
      by simpa [receivers_append, Spec.receivers, hab] using h4⟩

/-- What is known of the state after `tr` has happened. -/
structure Inv (s : State) (tr : List (Side × Ev)) : Prop where
  conn : s.conn = memory.conn
  left : ChanInv (s.chan false) .left .right tr
  right : ChanInv (s.chan true) .right .left tr

theorem inv_init : Inv (memory : State) [] :=
  ⟨rfl, ⟨rfl, rfl, [], rfl, fun _ => rfl⟩, ⟨rfl, rfl, [], rfl, fun _ => rfl⟩⟩

theorem end_cases (op : Op) : (∀ c : Conn, op.end c = c.sender) ∨ (∀ c : Conn, op.end c = c.receiver) := by
  cases op <;> first | exact .inl fun _ => rfl | exact .inr fun _ => rfl

theorem inv_step {s : State} {tr : List (Side × Ev)} (h : Inv s tr) (side : Side) (op : Op) :
    Inv (step s side op).1 (tr ++ [(side, (step s side op).2)]) := by
  obtain ⟨chan, conn⟩ := s
  obtain ⟨hc, hl, hr⟩ := h
  simp only at hc hl hr
  subst hc
  rcases end_cases op with ho | ho <;> cases side <;> simp only [step, State.set, ho]
  · exact ⟨rfl, chan_sender hl op ho, chan_other hr (by decide) op _ _ (.inl ⟨rfl, ho⟩)⟩
  · exact ⟨rfl, chan_other hl (by decide) op _ _ (.inl ⟨rfl, ho⟩), chan_sender hr op ho⟩
  · exact ⟨rfl, chan_other hl (by decide) op _ _ (.inr ⟨rfl, ho⟩), chan_receiver hr op ho⟩
  · exact ⟨rfl, chan_receiver hl op ho, chan_other hr (by decide) op _ _ (.inr ⟨rfl, ho⟩)⟩

theorem inv_run (ops : List (Side × Op)) : ∀ {s : State} {tr : List (Side × Ev)}, Inv s tr →
    Inv (run s ops).1 (tr ++ (run s ops).2) := by
  induction ops with
  | nil => intro s tr h; simpa [run] using h
  | cons x ops ih =>
    obtain ⟨side, op⟩ := x
    intro s tr h
    have := ih (inv_step h side op)
    simpa [run] using this

/-- What has happened after some operations. -/
def Spec.history (ops : List (Side × Op)) : List (Side × Ev) := (run memory ops).2

/-- What happens in one more operation. -/
def Spec.outcome (ops : List (Side × Op)) (side : Side) (op : Op) : Ev :=
  (step (run memory ops).1 side op).2

theorem inv_memory (ops : List (Side × Op)) : Inv (run memory ops).1 (Spec.history ops) := by
  simpa [Spec.history] using inv_run ops inv_init

theorem outcome_eq (ops : List (Side × Op)) (side : Side) (op : Op) :
    Spec.history (ops ++ [(side, op)]) = Spec.history ops ++ [(side, Spec.outcome ops side op)] := by
  simp [Spec.history, Spec.outcome, run_append, run]

theorem inv_side (ops : List (Side × Op)) (side : Side) : ∃ x : Chan,
    ChanInv x side.other side (Spec.history ops) ∧
    (∀ op : Op, (∀ c : Conn, op.end c = c.receiver) → Spec.outcome ops side op = (op.on x).2) ∧
    (∀ op : Op, (∀ c : Conn, op.end c = c.sender) → Spec.outcome ops side.other op = (op.on x).2) := by
  obtain ⟨hc, hl, hr⟩ := inv_memory ops
  cases side with
  | left => exact ⟨_, hr, fun op ho => by simp only [Spec.outcome, step, ho, hc]; rfl,
      fun op ho => by simp only [Spec.outcome, step, ho, hc]; rfl⟩
  | right => exact ⟨_, hl, fun op ho => by simp only [Spec.outcome, step, ho, hc]; rfl,
      fun op ho => by simp only [Spec.outcome, step, ho, hc]; rfl⟩

/-! ### C50 -/

/-- C50: under every interleaving, what a side has received is an initial part of what the other has
sent: in order, nothing lost in between, nothing twice, nothing else. -/
theorem C50_fifo (ops : List (Side × Op)) (side : Side) :
    Spec.receivedBy side (Spec.history ops) <+: Spec.sentBy side.other (Spec.history ops) := by
  obtain ⟨x, ⟨_, _, lost, h, _⟩, _⟩ := inv_side ops side
  exact ⟨x.queue ++ lost, by rw [h, List.append_assoc]⟩

/-- C50: receiving gives the first message not yet received, if there is one; otherwise it reports
disconnection exactly if the other side has no sending handle left. -/
theorem C50_recv (ops : List (Side × Op)) (side : Side)
    (hr : 0 < Spec.receivers side 1 (Spec.history ops)) :
    (∀ m, Spec.outcome ops side .recv = .received m ↔
      Spec.receivedBy side (Spec.history ops) ++ [m] <+: Spec.sentBy side.other (Spec.history ops)) ∧
    (Spec.outcome ops side .recv = .disconnected ↔
      Spec.receivedBy side (Spec.history ops) = Spec.sentBy side.other (Spec.history ops) ∧
      Spec.senders side.other 1 (Spec.history ops) = 0) ∧
    (Spec.outcome ops side .recv = .empty ↔
      Spec.receivedBy side (Spec.history ops) = Spec.sentBy side.other (Spec.history ops) ∧
      Spec.senders side.other 1 (Spec.history ops) ≠ 0) := by
  obtain ⟨x, ⟨h1, h2, lost, h3, h4⟩, h5, _⟩ := inv_side ops side
  have := h4 hr
  subst this
  rw [h5 .recv fun _ => rfl, h3, ← h1, List.append_nil]
  have hne : x.receivers ≠ 0 := by omega
  simp only [Op.on, Chan.recv, hne, if_false]
  cases hq : x.queue with
  | nil =>
    by_cases hs : x.senders = 0 <;> simp [hs]
    all_goals
      intro m hm
      have := hm.length_le
      simp only [List.length_append, List.length_singleton] at this
      omega
  | cons m r =>
    simp only [Ev.received.injEq, reduceCtorEq, List.prefix_append_right_inj, List.self_eq_append_right,
      false_and, and_true]
    intro m'
    simp [List.prefix_iff_eq_append, eq_comm]

/-- C50: sending succeeds exactly if the other side has a receiving handle left. -/
theorem C50_send (ops : List (Side × Op)) (side : Side) (m : Message)
    (hs : 0 < Spec.senders side 1 (Spec.history ops)) :
    (Spec.outcome ops side (.send m) = .sent m ↔
      0 < Spec.receivers side.other 1 (Spec.history ops)) ∧
    (Spec.outcome ops side (.send m) = .sendFailed m ↔
      Spec.receivers side.other 1 (Spec.history ops) = 0) := by
  obtain ⟨x, ⟨h1, h2, _⟩, _, h5⟩ := inv_side ops side.other
  have e : side.other.other = side := by cases side <;> rfl
  rw [e] at h5 h1
  rw [h5 _ fun _ => rfl, ← h2]
  have hne : x.senders ≠ 0 := by omega
  simp only [Op.on, Chan.send, hne, if_false]
  by_cases hr : x.receivers = 0 <;> simp [hr, Nat.pos_iff_ne_zero]

end

/-! ### Concrete cases -/

section
attribute [local instance] Ext.sample

/-- Both sides send before either receives; the left one also hangs up. -/
def sampleOps : List (Side × Op) :=
  [(.left, .send (.notification .exit)), (.right, .send (.notification .initialized)),
   (.left, .send (.notification .initialized)), (.right, .recv), (.left, .dropSender), (.left, .recv)]

/-- Beside C50: the right side has received exit, its next message is initialized, and its sends reach the
left side, which gets its own message nowhere. -/
example : Spec.outcome sampleOps .right .recv = .received (.notification .initialized) ∧
    Spec.outcome (sampleOps ++ [(.right, .recv)]) .right .recv = .disconnected ∧
    Spec.outcome sampleOps .left .recv = .empty ∧
    Spec.receivedBy .left (Spec.history sampleOps) = [.notification .initialized] := by
  refine ⟨((C50_recv sampleOps .right (by decide)).1 _).2 ⟨[], rfl⟩, ?_, ?_, rfl⟩
  · exact (C50_recv _ .right (by decide)).2.1.2 ⟨rfl, rfl⟩
  · exact (C50_recv sampleOps .left (by decide)).2.2.2 ⟨rfl, by decide⟩

/-- Beside C50: sends to a side without receiver fail. -/
example : Spec.outcome (sampleOps ++ [(.left, .dropReceiver)]) .right (.send (.notification .exit)) =
    .sendFailed (.notification .exit) :=
  (C50_send _ .right _ (by decide)).2.2 rfl

end
end Bsp
