/-
C56, C92 for all messages an application is likely to send: also the requests without params, which arrive as empty
responses (C13).
-/
import Verif.Props.Peer

namespace Bsp
open Frame Json Transport

section
variable [Ext]

/-- What the other side gets to see of a message: a request without params, or with null, as an empty response with its
id; everything else as it was, up to the normal form.
Specification about bsp-server/src/message.rs:7-13, request.rs:205-284. -/
def Spec.heard : Message → Message
  | .request (.shutdown id) => .response ⟨id, none, none⟩
  | .request (.workspaceBuildTargets id) => .response ⟨id, none, none⟩
  | .request (.workspaceReload id) => .response ⟨id, none, none⟩
  | .request (.custom id m v) => if v.isNull then .response ⟨id, none, none⟩ else .request (.custom id m v)
  | m => m.norm

/-- Messages that can be carried, and (if they are custom) have no built-in method.
Specification about bsp-server/src/message.rs:7-13, 42-49. -/
structure Spec.Sayable [FloatText] (m : Message) : Prop where
  kind : Spec.WireOk m ∨ ∃ r, m = .request r ∧ Spec.Bare r
  carried : Spec.Carried m

theorem heard_wireOk {m : Message} (h : Spec.WireOk m) : Spec.heard m = m.norm := by
  cases m with
  | request r =>
    cases r with
    | custom id m v =>
      have : v.isNull = false := by
        cases e : v.isNull with
        | false => rfl
        | true => exact absurd ((Value.isNull_iff v).1 e) h.2
      simp [Spec.heard, this, Message.norm, Request.norm]
    | shutdown => exact h.elim
    | workspaceBuildTargets => exact h.elim
    | workspaceReload => exact h.elim
    | _ => rfl
  | _ => rfl

theorem heard_bare {r : Request} (h : Spec.Bare r) : Spec.heard (.request r) = .response ⟨r.id, none, none⟩ := by
  obtain ⟨id, rfl | rfl | rfl | ⟨m, rfl⟩⟩ := h <;> rfl

/-- Only the exit notification is heard as one. -/
theorem heard_exit {m : Message} (h : Spec.heard m = .notification .exit) : m = .notification .exit := by
  cases m with
  | request r =>
    cases r <;> simp [Spec.heard, Message.norm] at h
    split at h <;> cases h
  | response r => simp [Spec.heard, Message.norm] at h
  | notification n => cases n <;> simp [Spec.heard, Message.norm, Notification.norm] at h ⊢

end

section
variable [LawfulExt] [FloatText]

theorem sayable_of {m : Message} (h : Spec.WireOk m ∧ Spec.Carried m) : Spec.Sayable m := ⟨.inl h.1, h.2⟩

theorem sayable_dec {m : Message} (h : Spec.Sayable m) : Message.dec m.enc = some (Spec.heard m) := by
  rcases h.kind with h1 | ⟨r, rfl, h1⟩
  · rw [C12_tree m h1, heard_wireOk h1]
  · rw [(bare_carried h1 h.carried.size).2, heard_bare h1]

/-- C12, C13 together: every such message is read back, as what the other side hears of it. -/
theorem C13_heard {m : Message} (h : Spec.Sayable m) (rest : Bytes) (br : Bool) :
    readMsg (⟨write m ++ rest, br⟩ : Flat) = .item (Spec.heard m) ⟨rest, br⟩ := by
  rw [readMsg, readText_write m h.carried.size]
  simp only [msgText, Text.parse_print h.carried.nest h.carried.numbers, Option.bind_some, sayable_dec h]

/-- C13: so a stream of such messages, requests without params among them, is read in order, followed by a clean end. -/
theorem C13_heard_stream (ms : List Message) (h : ∀ m ∈ ms, Spec.Sayable m) :
    readAll (⟨ms.flatMap write, false⟩ : Flat) = (ms.map Spec.heard, .eof) := by
  induction ms with
  | nil => exact C02_stream [] (by simp)
  | cons m ms ih =>
    rw [List.flatMap_cons, readAll_eq, C13_heard (h m (by simp))]
    simp [ih (fun x hx => h x (List.mem_cons_of_mem _ hx))]

/-- C56, for requests without params as well: under every schedule, what one side has received is what is heard of what
the other side has sent, in order. -/
theorem C56_heard {ka kb : Kind} {p : Pair} (h : PairReachable ka kb p) (ha : ∀ m ∈ p.a.accepted, Spec.Sayable m) :
    p.b.delivered <+: p.a.accepted.map Spec.heard := by
  obtain ⟨h1, h2, h3, _⟩ := pair_inv h
  obtain ⟨more, hm⟩ := h3.trans (C53_output h1).1
  have := C51_prefix h2 more false
  rw [hm, C13_heard_stream _ ha] at this
  exact this

/-- C56, for requests without params as well: while the stream from the sender is up, the receiving reader does not
fail, unless its application has dropped the receiver. -/
theorem C56_heard_no_error {ka kb : Kind} {p : Pair} (h : PairReachable ka kb p)
    (ha : ∀ m ∈ p.a.accepted, Spec.Sayable m) (hup : p.b.inEnd = none) :
    p.b.reader ≠ .failed ∧ (p.b.reader = .panicked → p.b.rxAlive = false) := by
  obtain ⟨h1, h2, h3, _⟩ := pair_inv h
  obtain ⟨more, hm⟩ := h3.trans (C53_output h1).1
  have key : ∀ ms stop, Spec.Input p.b ms stop → stop = .eof := by
    intro ms stop hi
    simp only [Spec.Input, hup] at hi
    have := hi more false
    rw [hm, C13_heard_stream _ ha] at this
    cases this; rfl
  refine ⟨?_, ?_⟩
  · intro hr
    obtain ⟨_, stop, h4, h5⟩ := C55_error h2 hr
    have := key _ _ h5
    subst this; exact h4
  · intro hr
    rcases C55_panic h2 hr with h4 | ⟨_, stop, h4, h5⟩ | h4
    · exact h4.1
    · have := key _ _ h5
      subst this; exact h4.elim
    · have := key _ _ h4
      cases this

/-- C56, for requests without params as well: nothing is lost. -/
theorem C56_heard_all {ka kb : Kind} {p : Pair} (h : PairReachable ka kb p)
    (ha : ∀ m ∈ p.a.accepted, Spec.Sayable m)
    (harr : p.b.arrived = p.a.accepted.flatMap Frame.write) (hr : p.b.reader = .reading)
    (hstuck : ¬ ∃ s', Step kb p.b .read s') :
    p.b.delivered = p.a.accepted.map Spec.heard := by
  obtain ⟨_, h2, _, _⟩ := pair_inv h
  obtain ⟨⟨used, ps, hu, hp, hc⟩, _, _⟩ := (readInv h2).1
  simp only [Spec.Pending, hr] at hp
  subst hp
  rw [List.append_nil] at hc
  have h3 := C13_heard_stream _ ha
  rw [← harr, hu, readAll_carries hc] at h3
  simp only [nothing_whole hr hstuck, List.append_nil, Prod.mk.injEq] at h3
  exact h3.1

end

section
attribute [local instance] Ext.sample FloatText.sample

theorem shutdown_sayable : Spec.Sayable (.request (.shutdown (.i32 4))) :=
  ⟨.inr ⟨_, rfl, _, .inl rfl⟩, (bare_carried ⟨_, .inl rfl⟩ (by decide)).1⟩

/-- Beside C13, C56: the samples, and a shutdown request after them, which arrives as an empty response. -/
example : readAll (⟨(sampleMessages ++ [Message.request (.shutdown (.i32 4))]).flatMap write, false⟩ : Flat) =
    (sampleMessages.map Spec.heard ++ [.response ⟨.i32 4, none, none⟩], .eof) := by
  rw [C13_heard_stream]
  · simp [Spec.heard]
  · intro m hm
    rcases List.mem_append.1 hm with hm | hm
    · exact sayable_of (sample_ok m hm)
    · rw [List.mem_singleton.1 hm]; exact shutdown_sayable

end
end Bsp
