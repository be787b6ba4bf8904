/-
C85: what the four ways to send do.
-/
import Verif.Sending
import Verif.Props.Transport
import Verif.Props.Memory

set_option linter.unusedSectionVars false

namespace Bsp
open Sending

section
variable [Ext]

/-! ### Specification -/

/-- The messages of the calls that have returned `Ok`. -/
def Spec.sentOk : List (Call × Result) → List Message
  | [] => []
  | (c, .ok) :: t => c.msg :: Spec.sentOk t
  | _ :: t => Spec.sentOk t

/-- What each method can return: its message comes back with every error. -/
def Spec.Result : How → Message → Result → Prop
  | _, _, .ok => True
  | _, m, .disconnected m' => m' = m
  | h, m, .full m' => h = .trySend ∧ m' = m
  | h, m, .timeout m' => (h = .sendTimeout ∨ h = .sendDeadline) ∧ m' = m

theorem sentOk_append (a b : List (Call × Result)) : Spec.sentOk (a ++ b) = Spec.sentOk a ++ Spec.sentOk b := by
  induction a with
  | nil => rfl
  | cons x a ih =>
    obtain ⟨c, r⟩ := x
    cases r <;> simp [Spec.sentOk, ih]

variable [FloatText] {k : Transport.Kind}

structure UseInv (k : Transport.Kind) (u : Use) : Prop where
  reach : Transport.Reachable k u.io
  acc : u.io.accepted = Spec.sentOk u.returned
  ok : ∀ x ∈ u.returned, Spec.Result x.1.how x.1.msg x.2
  perm : (u.waiting ++ u.returned.map (·.1)).Perm u.made
  tx : u.waiting ≠ [] → u.io.txAlive = true
  lost : ∀ c m, (c, Result.disconnected m) ∈ u.returned → u.io.writer = Transport.writeError k

theorem step_accepted {s s' : Transport.State} {a : Transport.Act} (h : Transport.Step k s a s')
    (ha : ∀ m, a ≠ .accept m) : s'.accepted = s.accepted ∧ (a ≠ .dropTx → s'.txAlive = s.txAlive) ∧
      (s.writer.ended = true → s'.writer = s.writer) := by
  cases h with
  | read r _ _ => cases r <;> exact ⟨rfl, fun _ => rfl, fun _ => rfl⟩
  | accept m _ _ => exact absurd rfl (ha m)
  | dropTx => exact ⟨rfl, (absurd rfl ·), fun _ => rfl⟩
  | write a b h1 _ => exact ⟨rfl, fun _ => rfl, fun h => by rw [h1] at h; cases h⟩
  | written h1 => exact ⟨rfl, fun _ => rfl, fun h => by rw [h1] at h; cases h⟩
  | writeFails b h1 => exact ⟨rfl, fun _ => rfl, fun h => by rw [h1] at h; cases h⟩
  | close h1 _ => exact ⟨rfl, fun _ => rfl, fun h => by rw [h1] at h; cases h⟩
  | _ => exact ⟨rfl, fun _ => rfl, fun _ => rfl⟩

theorem error_ended (k : Transport.Kind) : (Transport.writeError k).ended = true := by cases k <;> rfl

theorem useInv {u : Use} (h : Sending.Steps k {} u) : UseInv k u := by
  generalize h0 : ({} : Use) = u0 at h
  induction h with
  | nil => subst h0; exact ⟨⟨[], .nil _⟩, rfl, by simp, .refl _, by simp, by simp⟩
  | @snoc w u h1 h2 ih =>
    obtain ⟨i1, i2, i3, i4, i5, i6⟩ := ih
    cases h2 with
    | call c ht =>
      refine ⟨i1, i2, i3, ?_, fun _ => ht, i6⟩
      have : ((w.waiting ++ [c]) ++ w.returned.map (·.1)).Perm ((w.waiting ++ w.returned.map (·.1)) ++ [c]) := by
        rw [List.append_assoc, List.append_assoc]
        exact List.Perm.append_left _ List.perm_append_comm
      exact this.trans (i4.append_right _)
    | @returns c a b r io hw hr =>
      have ht := i5 (by rw [hw]; simp)
      have hp : ((a ++ b) ++ (w.returned ++ [(c, r)]).map (·.1)).Perm w.made := by
        refine List.Perm.trans ?_ i4
        rw [hw]
        simp only [List.map_append, List.map_cons, List.map_nil, List.append_assoc, List.cons_append]
        refine List.Perm.append_left a ?_
        rw [← List.append_assoc]
        exact List.perm_append_comm
      cases hr with
      | taken hs =>
        refine ⟨reachable_step i1 hs, ?_, ?_, hp, ?_, ?_⟩ <;> cases hs with | accept _ hi htx => ?_
        · simp [sentOk_append, Spec.sentOk, i2]
        · intro x hx
          rcases List.mem_append.1 hx with hx | hx
          · exact i3 x hx
          · simp only [List.mem_singleton] at hx; subst hx; trivial
        · intro _; exact ht
        · intro c' m' hx
          rcases List.mem_append.1 hx with hx | hx
          · have := i6 _ _ hx
            rw [hi] at this
            cases k <;> cases this
          · simp at hx
      | gone hg =>
        have := C54_alive i1 ht hg
        refine ⟨i1, ?_, ?_, hp, fun _ => ht, fun _ _ _ => this⟩
        · simp [sentOk_append, Spec.sentOk, i2]
        · intro x hx
          rcases List.mem_append.1 hx with hx | hx
          · exact i3 x hx
          · simp only [List.mem_singleton] at hx; subst hx; rfl
      | full hh hg =>
        refine ⟨i1, ?_, ?_, hp, fun _ => ht, ?_⟩
        · simp [sentOk_append, Spec.sentOk, i2]
        · intro x hx
          rcases List.mem_append.1 hx with hx | hx
          · exact i3 x hx
          · simp only [List.mem_singleton] at hx; subst hx; exact ⟨hh, rfl⟩
        · intro c' m' hx
          exact i6 c' m' (by simpa using hx)
      | timeout hh hg =>
        refine ⟨i1, ?_, ?_, hp, fun _ => ht, ?_⟩
        · simp [sentOk_append, Spec.sentOk, i2]
        · intro x hx
          rcases List.mem_append.1 hx with hx | hx
          · exact i3 x hx
          · simp only [List.mem_singleton] at hx; subst hx; exact ⟨.inl hh, rfl⟩
        · intro c' m' hx
          exact i6 c' m' (by simpa using hx)
      | deadline hh hg =>
        refine ⟨i1, ?_, ?_, hp, fun _ => ht, ?_⟩
        · simp [sentOk_append, Spec.sentOk, i2]
        · intro x hx
          rcases List.mem_append.1 hx with hx | hx
          · exact i3 x hx
          · simp only [List.mem_singleton] at hx; subst hx; exact ⟨.inr hh, rfl⟩
        · intro c' m' hx
          exact i6 c' m' (by simpa using hx)
    | @other act io hs ha hd =>
      obtain ⟨e1, e2, e3⟩ := step_accepted hs ha
      refine ⟨reachable_step i1 hs, e1.trans i2, i3, i4, ?_, ?_⟩
      · intro hw
        have hne : act ≠ .dropTx := fun h => hw (hd h)
        rw [e2 hne]
        exact i5 hw
      · intro c m hx
        have := i6 c m hx
        rw [← this]
        exact e3 (by rw [this]; exact error_ended k)

/-- C85: whatever threads send at the same time and whichever method they use, every call is in progress or has
returned, once; the messages that the writer has got are those of the calls that have returned `Ok`, each once, in the
order in which the calls returned; and every other call has returned its own message, in an error that its method
can give. -/
theorem C85_once {u : Use} (h : Sending.Steps k {} u) :
    (u.waiting ++ u.returned.map (·.1)).Perm u.made ∧
    u.io.accepted = Spec.sentOk u.returned ∧
    ∀ c r, (c, r) ∈ u.returned → Spec.Result c.how c.msg r :=
  have i := useInv h
  ⟨i.perm, i.acc, fun c r hx => i.ok (c, r) hx⟩

/-- C85: what is written are the frames of the messages of the calls that have returned `Ok`, in that order; only the
last can be incomplete. -/
theorem C85_output {u : Use} (h : Sending.Steps k {} u) :
    u.io.out <+: (Spec.sentOk u.returned).flatMap Frame.write ∧
    (Spec.sentOk u.returned).dropLast.flatMap Frame.write <+: u.io.out := by
  have i := useInv h
  rw [← i.acc]
  exact C53_output i.reach

/-- C85: a call finds the channel disconnected only if a write has failed; from then on every call returns that, and
nothing more is sent. -/
theorem C85_disconnected {u v : Use} (h : Sending.Steps k {} u) {c : Call} {m : Message}
    (hd : (c, Result.disconnected m) ∈ u.returned) (h' : Sending.Steps k u v) :
    u.io.writer = Transport.writeError k ∧ v.io.accepted = u.io.accepted ∧ v.io.out = u.io.out ∧
    ∃ more, v.returned = u.returned ++ more ∧ ∀ x ∈ more, x.2 = .disconnected x.1.msg := by
  have hu := (useInv h).lost c m hd
  refine ⟨hu, ?_⟩
  suffices v.io.writer = Transport.writeError k ∧ v.io.accepted = u.io.accepted ∧ v.io.out = u.io.out ∧
    ∃ more, v.returned = u.returned ++ more ∧ ∀ x ∈ more, x.2 = .disconnected x.1.msg from this.2
  induction h' with
  | nil => exact ⟨hu, rfl, rfl, [], by simp, by simp⟩
  | @snoc w v h1 h2 ih =>
    obtain ⟨j1, j2, j3, more, j4, j5⟩ := ih
    have hend : w.io.writer.ended = true := by rw [j1]; exact error_ended k
    cases h2 with
    | call c ht => exact ⟨j1, j2, j3, more, j4, j5⟩
    | @returns c a b r io hw hr =>
      cases hr with
      | taken hs => cases hs with | accept _ hi _ => rw [hi] at hend; cases hend
      | gone _ =>
        refine ⟨j1, j2, j3, more ++ [(c, .disconnected c.msg)], by simp [j4], ?_⟩
        intro x hx
        rcases List.mem_append.1 hx with hx | hx
        · exact j5 x hx
        · simp only [List.mem_singleton] at hx; subst hx; rfl
      | full _ h3 => rw [hend] at h3; cases h3
      | timeout _ h3 => rw [hend] at h3; cases h3
      | deadline _ h3 => rw [hend] at h3; cases h3
    | @other act io hs ha hd' =>
      have := C53_final hend (.snoc (.nil _) hs)
      exact ⟨this.2.2.trans j1, this.2.1.trans j2, this.1.trans j3, more, j4, j5⟩

/-- C85: `try_send` and the sends with a time limit can return in every state; `send` can return unless the writer is
busy with an earlier message, which then is not written completely or just so. -/
theorem C85_returns {u : Use} (h : Sending.Steps k {} u) {c : Call} (hc : c ∈ u.waiting) :
    (∃ r io, Returns k u.io c r io) ∨
    (c.how = .send ∧ ∃ ms m sent rest, Spec.sentOk u.returned = ms ++ [m] ∧ Frame.write m = sent ++ rest ∧
      u.io.out = ms.flatMap Frame.write ++ sent) := by
  have i := useInv h
  cases he : u.io.writer.ended with
  | true => exact .inl ⟨_, _, .gone he⟩
  | false =>
    cases hw : u.io.writer with
    | idle => exact .inl ⟨_, _, .taken (.accept _ _ hw (i.tx (List.ne_nil_of_mem hc)))⟩
    | writing rest =>
      cases hh : c.how with
      | send =>
        right
        have := writeInv i.reach
        simp only [WriteInv, hw] at this
        obtain ⟨ms, m, sent, h1, h2, h3⟩ := this
        exact ⟨rfl, ms, m, sent, rest, by rw [← i.acc, h1], h2, h3⟩
      | trySend => exact .inl ⟨_, _, .full hh he⟩
      | sendTimeout => exact .inl ⟨_, _, .timeout hh he⟩
      | sendDeadline => exact .inl ⟨_, _, .deadline hh he⟩
    | _ => rw [hw] at he; cases he

/-- C85: a call of `send` that has to wait gets through: once the operating system has taken the bytes of the
message before it, it can return. -/
theorem C85_progress {u : Use} (h : Sending.Steps k {} u) {c : Call} (hc : c ∈ u.waiting) :
    ∃ v, Sending.Steps k u v ∧ v.waiting = u.waiting ∧ v.returned = u.returned ∧ ∃ r io, Returns k v.io c r io := by
  have i := useInv h
  have ht := i.tx (List.ne_nil_of_mem hc)
  cases he : u.io.writer.ended with
  | true => exact ⟨u, .nil _, rfl, rfl, _, _, .gone he⟩
  | false =>
    cases hw : u.io.writer with
    | idle => exact ⟨u, .nil _, rfl, rfl, _, _, .taken (.accept _ _ hw ht)⟩
    | writing rest =>
      have h1 : ∃ v, Sending.Steps k u v ∧ v.waiting = u.waiting ∧ v.returned = u.returned ∧
          v.io.txAlive = true ∧ v.io.writer = .writing [] := by
        cases rest with
        | nil => exact ⟨u, .nil _, rfl, rfl, ht, hw⟩
        | cons x rest =>
          exact ⟨_, .snoc (.nil _) (.other (.write u.io (x :: rest) [] (by simpa using hw) (by simp)) (by simp)
            (by simp)), rfl, rfl, ht, rfl⟩
      obtain ⟨v, h2, h3, h4, h5, h6⟩ := h1
      exact ⟨_, .snoc h2 (.other (.written v.io h6) (by simp) (by simp)), h3, h4, _, _, .taken (.accept _ _ rfl h5)⟩
    | _ => rw [hw] at he; cases he

omit [FloatText] in
/-- C85: on a connection in memory, whatever has happened and whichever method is used, a call returns at once: `Ok` if
the other side has a receiver left, and then it is one more message sent, and its own message otherwise, and then
nothing is changed. -/
theorem C85_memory (ops : List (Mem.Side × Mem.Op)) (side : Mem.Side) (c : Call)
    (hs : 0 < Spec.senders side 1 (Spec.history ops)) :
    (0 < Spec.receivers side.other 1 (Spec.history ops) →
      inMemory (Mem.run Mem.memory ops).1 side c = ((Mem.run Mem.memory (ops ++ [(side, .send c.msg)])).1, some .ok) ∧
      Spec.sentBy side (Spec.history (ops ++ [(side, .send c.msg)])) = Spec.sentBy side (Spec.history ops) ++ [c.msg]) ∧
    (Spec.receivers side.other 1 (Spec.history ops) = 0 →
      inMemory (Mem.run Mem.memory ops).1 side c = ((Mem.run Mem.memory ops).1, some (.disconnected c.msg))) := by
  have h1 := C50_send ops side c.msg hs
  refine ⟨fun hr => ?_, fun hr => ?_⟩
  · have h2 := h1.1.2 hr
    refine ⟨?_, by rw [outcome_eq, sentBy_append, h2]; simp [Spec.sentBy]⟩
    simp only [Spec.outcome] at h2
    simp only [inMemory, run_append, Mem.run]
    cases hm : Mem.step (Mem.run Mem.memory ops).1 side (.send c.msg) with
    | mk s e => rw [hm] at h2; simp only at h2; subst h2; rfl
  · have h2 := h1.2.2 hr
    simp only [Spec.outcome] at h2
    simp only [inMemory]
    have h3 : (Mem.step (Mem.run Mem.memory ops).1 side (.send c.msg)).1 = (Mem.run Mem.memory ops).1 := by
      generalize (Mem.run Mem.memory ops).1 = s at *
      obtain ⟨chan, conn⟩ := s
      have hset : ∀ d, (⟨chan, conn⟩ : Mem.State).set d (chan d) = ⟨chan, conn⟩ := by
        intro d
        simp only [Mem.State.set, Mem.State.mk.injEq, and_true]
        funext e
        split <;> simp_all
      simp only [Mem.step, Mem.Op.on, Mem.Op.end] at h2 ⊢
      generalize (conn side).sender = d at *
      have : ((chan d).send c.msg).1 = chan d := by
        unfold Mem.Chan.send at h2 ⊢
        by_cases h4 : (chan d).senders = 0
        · simp [h4]
        · by_cases h5 : (chan d).receivers = 0
          · simp [h4, h5]
          · simp [h4, h5] at h2
      rw [this, hset]
    cases hm : Mem.step (Mem.run Mem.memory ops).1 side (.send c.msg) with
    | mk s e => rw [hm] at h2 h3; simp only at h2 h3; subst h2 h3; rfl

end

/-! ### Concrete cases -/

section
attribute [local instance] Ext.sample FloatText.sample

/-- Two threads send; the second finds the writer busy. -/
def sampleCalls : Call × Call := (⟨.send, sampleOut⟩, ⟨.trySend, .notification .exit⟩)

/-- Beside C85_once and C85_output: a message sent, and one handed back because the writer is busy. -/
example (k : Transport.Kind) : ∃ u, Sending.Steps k {} u ∧
    u.returned = [(sampleCalls.1, .ok), (sampleCalls.2, .full (.notification .exit))] ∧
    u.io.accepted = [sampleOut] ∧ u.io.out = (Frame.write sampleOut).take 5 ∧ u.io.out <+: Frame.write sampleOut := by
  have h1 := Sending.Steps.snoc (.nil ({} : Use)) (Sending.Step.call (k := k) _ sampleCalls.1 rfl)
  have h2 := h1.snoc (.call _ sampleCalls.2 rfl)
  have h3 := h2.snoc (.returns (a := []) rfl (.taken (.accept _ _ rfl rfl)))
  have e : Frame.write sampleOut = (Frame.write sampleOut).take 5 ++ (Frame.write sampleOut).drop 5 := by simp
  have h4 := h3.snoc (.other (.write _ ((Frame.write sampleOut).take 5) ((Frame.write sampleOut).drop 5)
    (congrArg Transport.Writer.writing e) (by decide)) (by simp) (by simp))
  have h5 := h4.snoc (.returns (a := []) (b := []) rfl (.full rfl rfl))
  have h6 := (C85_output h5).1
  exact ⟨_, h5, rfl, (C85_once h5).2.1, rfl, h6.trans (by simp [Spec.sentOk, sampleCalls])⟩

/-- Beside C85_disconnected: the write of the first message fails. -/
example (k : Transport.Kind) : ∃ u, Sending.Steps k {} u ∧
    u.returned = [(sampleCalls.1, .ok), (sampleCalls.2, .disconnected (.notification .exit))] ∧
    ∀ v, Sending.Steps k u v → v.io.accepted = [sampleOut] := by
  have h1 := Sending.Steps.snoc (.nil ({} : Use)) (Sending.Step.call (k := k) _ sampleCalls.1 rfl)
  have h2 := h1.snoc (.call _ sampleCalls.2 rfl)
  have h3 := h2.snoc (.returns (a := []) rfl (.taken (.accept _ _ rfl rfl)))
  have h4 := h3.snoc (.other (.writeFails _ _ rfl) (by simp) (by simp))
  have h5 := h4.snoc (.returns (a := []) (b := []) rfl (.gone (error_ended k)))
  exact ⟨_, h5, rfl, fun v hv => (C85_disconnected (c := sampleCalls.2) h5
    (List.mem_append_right _ (List.mem_singleton.2 rfl)) hv).2.1⟩

/-- Beside C85_returns and C85_progress: a second `send` has to wait. -/
example (k : Transport.Kind) : ∃ u c, Sending.Steps k {} u ∧ c ∈ u.waiting ∧ c.how = .send ∧
    (∀ r io, ¬ Returns k u.io c r io) ∧ ∃ v, Sending.Steps k u v ∧ ∃ r io, Returns k v.io c r io := by
  have h1 := Sending.Steps.snoc (.nil ({} : Use)) (Sending.Step.call (k := k) _ sampleCalls.1 rfl)
  have h2 := h1.snoc (.call _ sampleCalls.1 rfl)
  have h3 := h2.snoc (.returns (a := []) rfl (.taken (.accept _ _ rfl rfl)))
  obtain ⟨v, h4, _, _, h5⟩ := C85_progress h3 (c := sampleCalls.1) (by simp)
  refine ⟨_, sampleCalls.1, h3, by simp, rfl, ?_, v, h4, h5⟩
  intro r io hr
  cases hr with
  | taken hs => cases hs with | accept _ hi _ => cases hi
  | gone h => cases h
  | full h => cases h
  | timeout h => cases h
  | deadline h => cases h

/-- Beside C85_memory: the right side sends to the left one, with and without receiver. -/
example : (inMemory (Mem.run Mem.memory sampleOps).1 .right ⟨.trySend, .notification .exit⟩).2 = some .ok := by
  rw [((C85_memory sampleOps .right ⟨.trySend, .notification .exit⟩ (by decide)).1 (by decide)).1]

example (ops : List (Mem.Side × Mem.Op)) (h : ops = sampleOps ++ [(.left, .dropReceiver)]) :
    (inMemory (Mem.run Mem.memory ops).1 .right ⟨.sendTimeout, .notification .exit⟩).2 =
      some (.disconnected (.notification .exit)) := by
  rw [(C85_memory ops .right ⟨.sendTimeout, .notification .exit⟩ (by rw [h]; decide)).2 (by rw [h]; decide)]

end
end Bsp
