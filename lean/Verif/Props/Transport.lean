/-
C51–C58: the I/O threads.
-/
import Verif.Transport
import Verif.Props.Wire

namespace Bsp
open Frame Json Transport

section
variable [Ext] [FloatText]

/-! ### Specification -/

/-- The bytes are frames, one after the other, whose texts are JSON texts of these messages. -/
inductive Spec.Carries : Bytes → List Message → Prop
  | nil : Spec.Carries [] []
  | snoc {bs ms f cs j m} : Spec.Carries bs ms → Spec.IsFrame f cs → (utf8 cs).length ≤ 2 ^ 63 - 1 →
      Gram.JsonText 127 cs j → Message.dec j = some m → Spec.Carries (bs ++ f) (ms ++ [m])

/-- The messages that the input carries, and what comes after them, whatever else arrives. -/
def Spec.Input (s : State) (ms : List Message) (stop : Stop) : Prop :=
  match s.inEnd with
  | some b => readAll (⟨s.arrived, b⟩ : Flat) = (ms, stop)
  | none => ∀ more b, readAll (⟨s.arrived ++ more, b⟩ : Flat) = (ms, stop)

/-- The input is malformed: it ends in the middle of a message or in an I/O error, or has something that
is not a message where a message should be. -/
def Spec.Malformed : Stop → Prop
  | .invalidData | .unexpectedEof | .ioError => True
  | .eof | .panic => False

/-- Messages that have been read and not delivered. -/
def Spec.Pending (s : State) (ps : List Message) : Prop :=
  match s.reader with
  | .sending m => ps = [m]
  | .panicked => ps = [] ∨ (s.rxAlive = false ∧ ∃ m, ps = [m])
  | _ => ps = []

/-! ### Reading -/

theorem readMsg_item_iff {s r : Bytes} {b b' : Bool} {m : Message} :
    readMsg (⟨s, b⟩ : Flat) = .item m ⟨r, b'⟩ ↔
      b' = b ∧ ∃ f cs j, Spec.IsFrame f cs ∧ (utf8 cs).length ≤ 2 ^ 63 - 1 ∧ Gram.JsonText 127 cs j ∧
        Message.dec j = some m ∧ s = f ++ r := by
  constructor
  · intro h
    unfold readMsg at h
    split at h <;> try cases h
    rename_i cs s' h1
    split at h
    · cases h
    · rename_i m' h2
      cases h
      obtain ⟨e, h3, f, h4, h5⟩ := (C08_exactly_one_frame ..).1 h1
      cases hp : Text.parse cs with
      | none => simp [hp] at h2
      | some j =>
        simp only [hp, Option.bind_some] at h2
        exact ⟨e, f, cs, j, h4, h3, Text.parse_iff.1 hp, h2, h5⟩
  · rintro ⟨rfl, f, cs, j, hf, hl, hj, hd, rfl⟩
    have h1 := (C08_exactly_one_frame (f ++ r) r b' b' cs).2 ⟨rfl, hl, f, hf, rfl⟩
    unfold readMsg
    rw [h1]
    simp [Text.parse_iff.2 hj, hd]

theorem readMsg_extension {s r : Bytes} {b b' : Bool} {m : Message}
    (h : readMsg (⟨s, b⟩ : Flat) = .item m ⟨r, b'⟩) (more : Bytes) (c : Bool) :
    readMsg (⟨s ++ more, c⟩ : Flat) = .item m ⟨r ++ more, c⟩ := by
  obtain ⟨_, f, cs, j, hf, hl, hj, hd, rfl⟩ := readMsg_item_iff.1 h
  exact readMsg_item_iff.2 ⟨rfl, f, cs, j, hf, hl, hj, hd, by simp⟩

/-- Reading a stream that begins with frames. -/
theorem readAll_carries {bs : Bytes} {ms : List Message} (h : Spec.Carries bs ms) (rest : Bytes)
    (b : Bool) :
    readAll (⟨bs ++ rest, b⟩ : Flat) =
      (ms ++ (readAll (⟨rest, b⟩ : Flat)).1, (readAll (⟨rest, b⟩ : Flat)).2) := by
  induction h generalizing rest with
  | nil => simp
  | @snoc bs ms f cs j m h1 hf hl hj hd ih =>
    rw [List.append_assoc, ih, readAll_eq (⟨f ++ rest, b⟩ : Flat),
      readMsg_item_iff.2 ⟨rfl, f, cs, j, hf, hl, hj, hd, rfl⟩]
    simp

theorem readMsg_nil : readMsg (⟨[], false⟩ : Flat) = .eof ∧ readMsg (⟨[], true⟩ : Flat) = .ioError := by
  have h : ∀ b, readText (⟨[], b⟩ : Flat) = if b then .ioError else .eof := by
    intro b
    rw [readText_eq, headers_end _ (by simp)]
    cases b <;> simp
  rw [readMsg, readMsg, h, h]
  exact ⟨rfl, rfl⟩

/-- With nothing to read on an open stream the reader waits. -/
theorem no_read {k : Kind} {s s' : State} (hu : s.unread = []) (he : s.inEnd = none) :
    ¬ Step k s .read s' := by
  intro h
  cases h with
  | read r _ hs =>
    obtain ⟨h1, h2⟩ := readMsg_nil
    unfold Settled at hs
    simp only [he, hu, List.nil_append] at hs
    cases r with
    | item m rest => have := hs [] false; rw [h1] at this; cases this
    | eof => have := hs [] true; rw [h2] at this; cases this
    | _ => have := hs [] false; rw [h1] at this; cases this

/-! ### The invariant -/

/-- What holds of the reading side. -/
structure ReadInv (s : State) : Prop where
  frames : ∃ used ps, s.arrived = used ++ s.unread ∧ Spec.Pending s ps ∧
    Spec.Carries used (s.delivered ++ ps)
  exits : Message.notification .exit ∈ s.delivered →
    s.reader = .done ∧ ∃ ms, s.delivered = ms ++ [.notification .exit] ∧
      Message.notification .exit ∉ ms
  isDone : s.reader = .done → (∃ ms, s.delivered = ms ++ [.notification .exit]) ∨
    Spec.Input s s.delivered .eof

/-- Why a thread has failed. -/
structure FailInv (k : Kind) (s : State) : Prop where
  failed : s.reader = .failed → k = .stdio ∧ ∃ stop, Spec.Malformed stop ∧ Spec.Input s s.delivered stop
  panicked : s.reader = .panicked →
    (s.rxAlive = false ∧ ∃ m used, s.arrived = used ++ s.unread ∧ Spec.Carries used (s.delivered ++ [m])) ∨
    (k = .socket ∧ ∃ stop, Spec.Malformed stop ∧ Spec.Input s s.delivered stop) ∨
    Spec.Input s s.delivered .panic

/-- What holds of the writing side. -/
def WriteInv (k : Kind) (s : State) : Prop :=
  match s.writer with
  | .idle => s.out = s.accepted.flatMap Frame.write
  | .done => s.out = s.accepted.flatMap Frame.write ∧ s.txAlive = false
  | .writing rest => ∃ ms m sent, s.accepted = ms ++ [m] ∧ Frame.write m = sent ++ rest ∧
      s.out = ms.flatMap Frame.write ++ sent
  | .failed => k = .stdio ∧ ∃ ms m sent rest, s.accepted = ms ++ [m] ∧ Frame.write m = sent ++ rest ∧
      s.out = ms.flatMap Frame.write ++ sent
  | .panicked => k = .socket ∧ ∃ ms m sent rest, s.accepted = ms ++ [m] ∧ Frame.write m = sent ++ rest ∧
      s.out = ms.flatMap Frame.write ++ sent

theorem reachable_induct {k : Kind} {P : State → Prop} (h0 : P {})
    (hs : ∀ s a s', Reachable k s → P s → Step k s a s' → P s') {s : State} (h : Reachable k s) :
    P s := by
  obtain ⟨as, h⟩ := h
  have key : ∀ s0 as s, Steps k s0 as s → s0 = {} → P s ∧ Reachable k s := by
    intro s0 as s h
    induction h with
    | nil => intro e; subst e; exact ⟨h0, [], .nil _⟩
    | snoc h1 h2 ih =>
      intro e
      obtain ⟨h3, as', h4⟩ := ih e
      exact ⟨hs _ _ _ ⟨as', h4⟩ h3 h2, _, .snoc h4 h2⟩
  exact (key _ _ _ h rfl).1

theorem reachable_step {k : Kind} {s s' : State} {a : Act} (h : Reachable k s) (hs : Step k s a s') :
    Reachable k s' := by
  obtain ⟨as, h⟩ := h
  exact ⟨_, .snoc h hs⟩

theorem reachable_steps {k : Kind} {s s' : State} {as : List Act} (h : Reachable k s)
    (hs : Steps k s as s') : Reachable k s' := by
  induction hs with
  | nil => exact h
  | snoc _ h2 ih => exact reachable_step ih h2

theorem writeInv {k : Kind} {s : State} (h : Reachable k s) : WriteInv k s := by
  refine reachable_induct (P := WriteInv k) (by simp [WriteInv]) ?_ h
  intro s a s' _ ih hs
  cases hs with
  | arrive bs h1 => simpa only [WriteInv] using ih
  | hangUp br h1 => simpa only [WriteInv] using ih
  | read r h1 h2 => cases r <;> simpa only [WriteInv, afterRead] using ih
  | deliver m h1 h2 => simpa only [WriteInv] using ih
  | undeliverable m h1 h2 => simpa only [WriteInv] using ih
  | dropRx => simpa only [WriteInv] using ih
  | accept m h1 h2 =>
    simp only [WriteInv, h1] at ih
    simp only [WriteInv]
    exact ⟨s.accepted, m, [], rfl, rfl, by simp [ih]⟩
  | write a b h1 h2 =>
    simp only [WriteInv, h1] at ih
    obtain ⟨ms, m, sent, h3, h4, h5⟩ := ih
    simp only [WriteInv]
    exact ⟨ms, m, sent ++ a, h3, by simp [h4], by simp [h5]⟩
  | written h1 =>
    simp only [WriteInv, h1] at ih
    obtain ⟨ms, m, sent, h3, h4, h5⟩ := ih
    simp only [WriteInv]
    simp [h3, h5, h4]
  | writeFails b h1 =>
    simp only [WriteInv, h1] at ih
    obtain ⟨ms, m, sent, h3, h4, h5⟩ := ih
    cases k
    · exact ⟨rfl, ms, m, sent, b, h3, h4, h5⟩
    · exact ⟨rfl, ms, m, sent, b, h3, h4, h5⟩
  | dropTx =>
    revert ih
    simp only [WriteInv]
    cases s.writer <;> simp +contextual
  | close h1 h2 =>
    simp only [WriteInv, h1] at ih
    exact ⟨ih, h2⟩

theorem input_arrive {s : State} {ms : List Message} {stop : Stop} (h : Spec.Input s ms stop)
    (hn : s.inEnd = none) {s' : State} (bs : Bytes) (ha : s'.arrived = s.arrived ++ bs)
    (he : s'.inEnd = none) : Spec.Input s' ms stop := by
  simp only [Spec.Input, hn, he, ha] at h ⊢
  intro more b
  rw [List.append_assoc]
  exact h _ b

theorem input_hangUp {s : State} {ms : List Message} {stop : Stop} (h : Spec.Input s ms stop)
    (hn : s.inEnd = none) {s' : State} (br : Bool) (ha : s'.arrived = s.arrived)
    (he : s'.inEnd = some br) : Spec.Input s' ms stop := by
  simp only [Spec.Input, hn, he, ha] at h ⊢
  simpa using h [] br

theorem input_same {s s' : State} {ms : List Message} {stop : Stop} (h : Spec.Input s ms stop)
    (ha : s'.arrived = s.arrived) (he : s'.inEnd = s.inEnd) : Spec.Input s' ms stop := by
  simpa only [Spec.Input, ha, he] using h

/-- A read that settles on something else than a message settles the whole input. -/
theorem input_settled {s : State} {used : Bytes} {ms : List Message} {r : Res Flat Message} {stop : Stop}
    (ha : s.arrived = used ++ s.unread) (hc : Spec.Carries used ms) (hs : Settled s r)
    (hr : (r = .eof ∧ stop = .eof) ∨ (r = .invalidData ∧ stop = .invalidData) ∨
      (r = .unexpectedEof ∧ stop = .unexpectedEof) ∨ (r = .ioError ∧ stop = .ioError) ∨
      (r = .panic ∧ stop = .panic)) : Spec.Input s ms stop := by
  unfold Settled at hs
  unfold Spec.Input
  cases he : s.inEnd with
  | some b =>
    simp only [he] at hs ⊢
    rw [ha, readAll_carries hc, readAll_eq, hs]
    rcases hr with ⟨rfl, rfl⟩ | ⟨rfl, rfl⟩ | ⟨rfl, rfl⟩ | ⟨rfl, rfl⟩ | ⟨rfl, rfl⟩ <;> simp
  | none =>
    simp only [he] at hs ⊢
    intro more b
    rw [ha, List.append_assoc, readAll_carries hc, readAll_eq]
    rcases hr with ⟨rfl, rfl⟩ | ⟨rfl, rfl⟩ | ⟨rfl, rfl⟩ | ⟨rfl, rfl⟩ | ⟨rfl, rfl⟩ <;> simp [hs more b]

theorem settled_item {s : State} {m : Message} {rest : Flat} (hs : Settled s (.item m rest)) :
    ∃ f cs j, Spec.IsFrame f cs ∧ (utf8 cs).length ≤ 2 ^ 63 - 1 ∧ Gram.JsonText 127 cs j ∧
      Message.dec j = some m ∧ s.unread = f ++ rest.bytes := by
  obtain ⟨r, b'⟩ := rest
  unfold Settled at hs
  cases he : s.inEnd with
  | some b =>
    simp only [he] at hs
    exact (readMsg_item_iff.1 hs).2
  | none =>
    simp only [he] at hs
    have := hs [] false
    simp only [List.append_nil] at this
    exact (readMsg_item_iff.1 this).2

omit [FloatText] in
theorem isExit_iff {m : Message} : isExit m = true ↔ m = .notification .exit := by
  constructor
  · intro h
    unfold isExit at h
    split at h
    · rfl
    · cases h
  · rintro rfl; rfl

theorem readInv {k : Kind} {s : State} (h : Reachable k s) : ReadInv s ∧ FailInv k s := by
  refine reachable_induct (P := fun s => ReadInv s ∧ FailInv k s) ?_ ?_ h
  · refine ⟨⟨⟨[], [], by simp, by simp [Spec.Pending], .nil⟩, by simp, by simp⟩, ⟨by simp, by simp⟩⟩
  intro s a s' _ ih hs
  obtain ⟨⟨⟨used, ps, hu, hp, hc⟩, hx, hd⟩, ⟨hf, hpa⟩⟩ := ih
  cases hs with
  | arrive bs h1 =>
    refine ⟨⟨⟨used, ps, by simp [hu], by simpa only [Spec.Pending] using hp, hc⟩, hx, ?_⟩, ⟨?_, ?_⟩⟩
    · intro h2
      rcases hd h2 with h3 | h3
      · exact .inl h3
      · exact .inr (input_arrive h3 h1 bs rfl h1)
    · intro h2
      obtain ⟨e, stop, h3, h4⟩ := hf h2
      exact ⟨e, stop, h3, input_arrive h4 h1 bs rfl h1⟩
    · intro h2
      rcases hpa h2 with ⟨h3, m, used', h4, h5⟩ | ⟨e, stop, h3, h4⟩ | h3
      · exact .inl ⟨h3, m, used', by simp [h4], h5⟩
      · exact .inr (.inl ⟨e, stop, h3, input_arrive h4 h1 bs rfl h1⟩)
      · exact .inr (.inr (input_arrive h3 h1 bs rfl h1))
  | hangUp br h1 =>
    refine ⟨⟨⟨used, ps, hu, by simpa only [Spec.Pending] using hp, hc⟩, hx, ?_⟩, ⟨?_, ?_⟩⟩
    · intro h2
      rcases hd h2 with h3 | h3
      · exact .inl h3
      · exact .inr (input_hangUp h3 h1 br rfl rfl)
    · intro h2
      obtain ⟨e, stop, h3, h4⟩ := hf h2
      exact ⟨e, stop, h3, input_hangUp h4 h1 br rfl rfl⟩
    · intro h2
      rcases hpa h2 with h3 | ⟨e, stop, h3, h4⟩ | h3
      · exact .inl h3
      · exact .inr (.inl ⟨e, stop, h3, input_hangUp h4 h1 br rfl rfl⟩)
      · exact .inr (.inr (input_hangUp h3 h1 br rfl rfl))
  | read r h1 h2 =>
    simp only [Spec.Pending, h1] at hp
    subst hp
    rw [List.append_nil] at hc
    have hx' : Message.notification .exit ∉ s.delivered := by
      intro h3; have := (hx h3).1; rw [h1] at this; cases this
    cases r with
    | item m rest =>
      obtain ⟨f, cs, j, hf1, hl, hj, hdj, hu'⟩ := settled_item h2
      refine ⟨⟨⟨used ++ f, [m], by simp [afterRead, hu, hu'], by simp [Spec.Pending, afterRead],
        .snoc hc hf1 hl hj hdj⟩, fun h3 => absurd h3 hx', by simp [afterRead]⟩, ⟨by simp [afterRead], by simp [afterRead]⟩⟩
    | eof =>
      have := input_settled (stop := .eof) hu hc h2 (by simp)
      exact ⟨⟨⟨used, [], hu, by simp [Spec.Pending, afterRead], by simpa [afterRead] using hc⟩, fun h3 => absurd h3 hx',
        fun _ => .inr (input_same this rfl rfl)⟩, ⟨by simp [afterRead], by simp [afterRead]⟩⟩
    | panic =>
      have := input_settled (stop := .panic) hu hc h2 (by simp)
      exact ⟨⟨⟨used, [], hu, by simp [Spec.Pending, afterRead], by simpa [afterRead] using hc⟩, fun h3 => absurd h3 hx',
        by simp [afterRead]⟩, ⟨by simp [afterRead], fun _ => .inr (.inr (input_same this rfl rfl))⟩⟩
    | invalidData =>
      have := input_settled (stop := .invalidData) hu hc h2 (by simp)
      refine ⟨⟨⟨used, [], hu, ?_, by simpa [afterRead] using hc⟩, fun h3 => absurd h3 hx', ?_⟩, ⟨?_, ?_⟩⟩
      · cases k <;> simp [Spec.Pending, afterRead, readError]
      · cases k <;> simp [afterRead, readError]
      · cases k <;> intro h3 <;> first
          | exact ⟨rfl, .invalidData, trivial, input_same this rfl rfl⟩
          | cases h3
      · cases k <;> intro h3 <;> first
          | exact .inr (.inl ⟨rfl, .invalidData, trivial, input_same this rfl rfl⟩)
          | cases h3
    | unexpectedEof =>
      have := input_settled (stop := .unexpectedEof) hu hc h2 (by simp)
      refine ⟨⟨⟨used, [], hu, ?_, by simpa [afterRead] using hc⟩, fun h3 => absurd h3 hx', ?_⟩, ⟨?_, ?_⟩⟩
      · cases k <;> simp [Spec.Pending, afterRead, readError]
      · cases k <;> simp [afterRead, readError]
      · cases k <;> intro h3 <;> first
          | exact ⟨rfl, .unexpectedEof, trivial, input_same this rfl rfl⟩
          | cases h3
      · cases k <;> intro h3 <;> first
          | exact .inr (.inl ⟨rfl, .unexpectedEof, trivial, input_same this rfl rfl⟩)
          | cases h3
    | ioError =>
      have := input_settled (stop := .ioError) hu hc h2 (by simp)
      refine ⟨⟨⟨used, [], hu, ?_, by simpa [afterRead] using hc⟩, fun h3 => absurd h3 hx', ?_⟩, ⟨?_, ?_⟩⟩
      · cases k <;> simp [Spec.Pending, afterRead, readError]
      · cases k <;> simp [afterRead, readError]
      · cases k <;> intro h3 <;> first
          | exact ⟨rfl, .ioError, trivial, input_same this rfl rfl⟩
          | cases h3
      · cases k <;> intro h3 <;> first
          | exact .inr (.inl ⟨rfl, .ioError, trivial, input_same this rfl rfl⟩)
          | cases h3
  | deliver m h1 h2 =>
    simp only [Spec.Pending, h1] at hp
    subst hp
    have hx' : Message.notification .exit ∉ s.delivered := by
      intro h3; have := (hx h3).1; rw [h1] at this; cases this
    by_cases he : m = .notification .exit
    · subst he
      exact ⟨⟨⟨used, [], hu, by simp [Spec.Pending, afterSend, isExit], by simpa using hc⟩,
        fun _ => ⟨by simp [afterSend, isExit], s.delivered, rfl, hx'⟩, fun _ => .inl ⟨_, rfl⟩⟩,
        ⟨by simp [afterSend, isExit], by simp [afterSend, isExit]⟩⟩
    · have hr : afterSend m = .reading := by
        rw [afterSend, if_neg]; rw [isExit_iff]; exact he
      exact ⟨⟨⟨used, [], hu, by simp [Spec.Pending, hr], by simpa using hc⟩,
        fun h3 => by
          simp only [List.mem_append, List.mem_singleton] at h3
          rcases h3 with h3 | h3
          · exact absurd h3 hx'
          · exact absurd h3.symm he,
        by simp [hr]⟩, ⟨by simp [hr], by simp [hr]⟩⟩
  | undeliverable m h1 h2 =>
    simp only [Spec.Pending, h1] at hp
    subst hp
    have hx' : Message.notification .exit ∉ s.delivered := by
      intro h3; have := (hx h3).1; rw [h1] at this; cases this
    exact ⟨⟨⟨used, [m], hu, .inr ⟨h2, m, rfl⟩, hc⟩, fun h3 => absurd h3 hx', by simp⟩,
      ⟨by simp, fun _ => .inl ⟨h2, m, used, hu, hc⟩⟩⟩
  | dropRx =>
    refine ⟨⟨⟨used, ps, hu, ?_, hc⟩, hx, ?_⟩, ⟨?_, ?_⟩⟩
    · revert hp
      simp only [Spec.Pending]
      cases s.reader <;> simp +contextual
      intro h3; rcases h3 with h3 | h3
      · exact .inl h3
      · exact .inr h3.2
    · intro h3; rcases hd h3 with h4 | h4
      · exact .inl h4
      · exact .inr (input_same h4 rfl rfl)
    · intro h3; obtain ⟨e, stop, h4, h5⟩ := hf h3; exact ⟨e, stop, h4, input_same h5 rfl rfl⟩
    · intro h3
      rcases hpa h3 with ⟨_, h4⟩ | ⟨e, stop, h4, h5⟩ | h4
      · exact .inl ⟨rfl, h4⟩
      · exact .inr (.inl ⟨e, stop, h4, input_same h5 rfl rfl⟩)
      · exact .inr (.inr (input_same h4 rfl rfl))
  | accept m h1 h2 => exact ⟨⟨⟨used, ps, hu, hp, hc⟩, hx, hd⟩, ⟨hf, hpa⟩⟩
  | write a b h1 h2 => exact ⟨⟨⟨used, ps, hu, hp, hc⟩, hx, hd⟩, ⟨hf, hpa⟩⟩
  | written h1 => exact ⟨⟨⟨used, ps, hu, hp, hc⟩, hx, hd⟩, ⟨hf, hpa⟩⟩
  | writeFails b h1 => exact ⟨⟨⟨used, ps, hu, hp, hc⟩, hx, hd⟩, ⟨hf, hpa⟩⟩
  | dropTx => exact ⟨⟨⟨used, ps, hu, hp, hc⟩, hx, hd⟩, ⟨hf, hpa⟩⟩
  | close h1 h2 => exact ⟨⟨⟨used, ps, hu, hp, hc⟩, hx, hd⟩, ⟨hf, hpa⟩⟩

/-! ### C51 -/

/-- C51: the messages received are, in order, the first messages that the input carries, whatever arrives
later and however the input ends. -/
theorem C51_prefix {k : Kind} {s : State} (h : Reachable k s) (more : Bytes) (b : Bool) :
    s.delivered <+: (readAll (⟨s.arrived ++ more, b⟩ : Flat)).1 := by
  obtain ⟨⟨used, ps, hu, _, hc⟩, _, _⟩ := (readInv h).1
  rw [hu, List.append_assoc, readAll_carries hc]
  exact ⟨ps ++ (readAll (⟨s.unread ++ more, b⟩ : Flat)).1, by simp⟩

/-- C51: nothing is lost on the way either: each message received is the content of its own frame of the
input, and at most one message that has been read is not received yet. -/
theorem C51_frames {k : Kind} {s : State} (h : Reachable k s) :
    ∃ used ps, s.arrived = used ++ s.unread ∧ ps.length ≤ 1 ∧ Spec.Carries used (s.delivered ++ ps) := by
  obtain ⟨⟨used, ps, hu, hp, hc⟩, _, _⟩ := (readInv h).1
  refine ⟨used, ps, hu, ?_, hc⟩
  unfold Spec.Pending at hp
  split at hp
  · simp [hp]
  · rcases hp with rfl | ⟨_, m, rfl⟩ <;> simp
  · simp [hp]

/-- Two results a read can settle on have the same effect. -/
theorem settled_unique {k : Kind} {s : State} {r r' : Res Flat Message} (h : Settled s r)
    (h' : Settled s r') : afterRead k s r = afterRead k s r' := by
  unfold Settled at h h'
  cases he : s.inEnd with
  | some b => simp only [he] at h h'; rw [← h, ← h']
  | none =>
    simp only [he] at h h'
    cases r <;> cases r' <;> simp only at h h' <;> have h1 := h [] false <;> rw [h' [] false] at h1 <;>
      first
        | rfl
        | (cases h1; done)
        | (simp only [Res.item.injEq, Flat.mk.injEq, List.append_nil, and_true] at h1
           simp only [afterRead, h1])

/-- C51: when the reader waits for input and a whole message has come, it can go on, and then has
exactly that message to deliver. -/
theorem C51_progress {k : Kind} {s : State} {f rest : Bytes} {cs : List Char} {j : Json} {m : Message}
    (hr : s.reader = .reading) (hu : s.unread = f ++ rest) (hf : Spec.IsFrame f cs)
    (hl : (utf8 cs).length ≤ 2 ^ 63 - 1) (hj : Gram.JsonText 127 cs j) (hd : Message.dec j = some m) :
    (∃ s', Step k s .read s') ∧
      ∀ s', Step k s .read s' → s' = { s with reader := .sending m, unread := rest } := by
  have key : Settled s (.item m ⟨rest, s.inEnd.getD false⟩) := by
    unfold Settled
    have h0 : ∀ b, readMsg (⟨s.unread, b⟩ : Flat) = .item m ⟨rest, b⟩ := fun b =>
      readMsg_item_iff.2 ⟨rfl, f, cs, j, hf, hl, hj, hd, hu⟩
    cases he : s.inEnd with
    | some b => simp [h0]
    | none => exact fun more b => readMsg_extension (h0 false) more b
  refine ⟨⟨_, .read s _ hr key⟩, ?_⟩
  intro s' hs
  cases hs with
  | read _ _ h2 => rw [settled_unique h2 key]; rfl

/-! ### C52 -/

/-- C52: once exit has been delivered it is the last message delivered, the reader has ended
successfully, and what the reader has consumed is the frames of the delivered messages: nothing after the
frame of the exit notification. -/
theorem C52_exit {k : Kind} {s : State} (h : Reachable k s)
    (hx : Message.notification .exit ∈ s.delivered) :
    s.reader = .done ∧ (∃ ms, s.delivered = ms ++ [.notification .exit] ∧
      Message.notification .exit ∉ ms) ∧
    ∃ used, s.arrived = used ++ s.unread ∧ Spec.Carries used s.delivered := by
  obtain ⟨⟨used, ps, hu, hp, hc⟩, h1, _⟩ := (readInv h).1
  obtain ⟨h2, h3⟩ := h1 hx
  refine ⟨h2, h3, used, hu, ?_⟩
  simp only [Spec.Pending, h2] at hp
  simpa [hp] using hc

/-- How one step changes what has been delivered and read. -/
theorem step_done {k : Kind} {s s' : State} {a : Act} (hs : Step k s a s') (hd : s.reader.ended = true) :
    s'.reader = s.reader ∧ s'.delivered = s.delivered ∧ s.unread <+: s'.unread ∧
      s.arrived <+: s'.arrived := by
  cases hs with
  | read r h1 h2 => rw [h1] at hd; cases hd
  | deliver m h1 h2 => rw [h1] at hd; cases hd
  | undeliverable m h1 h2 => rw [h1] at hd; cases hd
  | _ => simp

/-- C52: and so it stays, whatever happens: no further message is delivered and no further byte is
read. -/
theorem C52_final {k : Kind} {s s' : State} {as : List Act} (h : Reachable k s)
    (hx : Message.notification .exit ∈ s.delivered) (hs : Steps k s as s') :
    s'.delivered = s.delivered ∧ s'.reader = .done ∧ s.unread <+: s'.unread := by
  have hd := (C52_exit h hx).1
  induction hs with
  | nil => exact ⟨rfl, hd, List.prefix_refl _⟩
  | snoc _ h2 ih =>
    obtain ⟨h3, h4, h5⟩ := ih
    obtain ⟨h6, h7, h8, _⟩ := step_done h2 (by rw [h4]; rfl)
    exact ⟨h7.trans h3, h6.trans h4, h5.trans h8⟩

/-! ### C53 -/

theorem writeInv_split {k : Kind} {s : State} (h : Reachable k s) :
    (s.out = s.accepted.flatMap Frame.write) ∨
    (∃ ms m sent rest, s.accepted = ms ++ [m] ∧ Frame.write m = sent ++ rest ∧
      s.out = ms.flatMap Frame.write ++ sent) := by
  have := writeInv h
  unfold WriteInv at this
  split at this
  · exact .inl this
  · exact .inl this.1
  · obtain ⟨ms, m, sent, h1, h2, h3⟩ := this
    exact .inr ⟨ms, m, sent, _, h1, h2, h3⟩
  · exact .inr this.2
  · exact .inr this.2

/-- C53: in every state, also after a failed write, the output is a prefix of the frames of the accepted
messages in order, and all accepted messages but the last are in it completely. -/
theorem C53_output {k : Kind} {s : State} (h : Reachable k s) :
    s.out <+: s.accepted.flatMap Frame.write ∧
      s.accepted.dropLast.flatMap Frame.write <+: s.out := by
  rcases writeInv_split h with h1 | ⟨ms, m, sent, rest, h1, h2, h3⟩
  · rw [h1]
    refine ⟨List.prefix_refl _, ?_⟩
    obtain ⟨t, ht⟩ := List.dropLast_prefix s.accepted
    exact ⟨t.flatMap Frame.write, by rw [← List.flatMap_append, ht]⟩
  · rw [h1, h3]
    refine ⟨⟨rest, by simp [h2]⟩, ?_⟩
    rw [List.dropLast_concat]
    exact ⟨sent, rfl⟩

/-- C53: a message is only accepted when all earlier ones are written completely. -/
theorem C53_one_at_a_time {k : Kind} {s s' : State} {m : Message} (h : Reachable k s)
    (hs : Step k s (.accept m) s') : s.out = s.accepted.flatMap Frame.write := by
  have := writeInv h
  cases hs with
  | accept _ h1 _ => simpa only [WriteInv, h1] using this

/-- C53: a writer that has ended has written for the last time. -/
theorem C53_final {k : Kind} {s s' : State} {as : List Act} (hw : s.writer.ended = true)
    (hs : Steps k s as s') : s'.out = s.out ∧ s'.accepted = s.accepted ∧ s'.writer = s.writer := by
  induction hs with
  | nil => exact ⟨rfl, rfl, rfl⟩
  | snoc _ h2 ih =>
    obtain ⟨h3, h4, h5⟩ := ih
    rw [← h5] at hw
    cases h2 with
    | read r _ _ => cases r <;> exact ⟨h3, h4, h5⟩
    | accept m h1 _ => rw [h1] at hw; cases hw
    | write a b h1 _ => rw [h1] at hw; cases hw
    | written h1 => rw [h1] at hw; cases hw
    | writeFails b h1 => rw [h1] at hw; cases hw
    | close h1 _ => rw [h1] at hw; cases hw
    | _ => exact ⟨h3, h4, h5⟩

/-! ### C54 -/

/-- C54: a writer that has ended successfully has written every accepted message completely, and no
sender is left. -/
theorem C54_drained {k : Kind} {s : State} (h : Reachable k s) (hw : s.writer = .done) :
    s.txAlive = false ∧ s.out = s.accepted.flatMap Frame.write := by
  have := writeInv h
  simp only [WriteInv, hw] at this
  exact ⟨this.2, this.1⟩

/-- C54: as long as a sender is left the writer ends only in a failed write. -/
theorem C54_alive {k : Kind} {s : State} (h : Reachable k s) (ht : s.txAlive = true)
    (hw : s.writer.ended = true) : s.writer = writeError k := by
  have := writeInv h
  unfold WriteInv at this
  split at this <;> rename_i h1 <;> rw [h1] at hw ⊢ <;> try cases hw
  · rw [this.2] at ht; cases ht
  · rw [this.1]; rfl
  · rw [this.1]; rfl

/-- C54: when no sender is left and the writer has nothing to write it can only end successfully. -/
theorem C54_close {k : Kind} {s : State} (hi : s.writer = .idle) (ht : s.txAlive = false) :
    (∃ s', Step k s .close s') ∧
      ∀ a s', Step k s a s' → s'.writer = .idle ∨ s'.writer = .done := by
  refine ⟨⟨_, .close s hi ht⟩, ?_⟩
  intro a s' hs
  cases hs with
  | read r _ _ => cases r <;> exact .inl hi
  | accept m _ h2 => rw [ht] at h2; cases h2
  | write a b h1 _ => rw [hi] at h1; cases h1
  | written h1 => rw [hi] at h1; cases h1
  | writeFails b h1 => rw [hi] at h1; cases h1
  | close h1 _ => exact .inr rfl
  | _ => exact .inl hi

/-! ### C55 -/

/-- On an open stream a clean end cannot be foreseen. -/
theorem input_eof {k : Kind} {s : State} (h : Reachable k s) (hr : s.reader = .done)
    (hi : Spec.Input s s.delivered .eof) :
    s.inEnd = some false ∧ readAll (⟨s.arrived, false⟩ : Flat) = (s.delivered, .eof) := by
  obtain ⟨⟨used, ps, hu, hp, hc⟩, _, _⟩ := (readInv h).1
  simp only [Spec.Pending, hr] at hp
  subst hp
  rw [List.append_nil] at hc
  have key : ¬ ∃ more, readAll (⟨s.arrived ++ more, true⟩ : Flat) = (s.delivered, .eof) := by
    rintro ⟨more, h1⟩
    rw [hu, List.append_assoc, readAll_carries hc] at h1
    simp only [Prod.mk.injEq, List.append_right_eq_self] at h1
    rw [readAll_eq] at h1
    cases h2 : readMsg (⟨s.unread ++ more, true⟩ : Flat) with
    | eof =>
      unfold readMsg at h2
      split at h2 <;> try cases h2
      · split at h2 <;> cases h2
      · rename_i h3
        have := ((C07_clean_end _ _).1 h3).1
        cases this
    | _ => simp [h2] at h1
  unfold Spec.Input at hi
  cases he : s.inEnd with
  | none => simp only [he] at hi; exact absurd ⟨[], hi [] true⟩ key
  | some b =>
    simp only [he] at hi
    cases b
    · exact ⟨rfl, hi⟩
    · exact absurd ⟨[], by simpa using hi⟩ key

/-- C55: the stdio reader returns an error only if the input is malformed, after having delivered the
messages before; the socket reader never returns an error. -/
theorem C55_error {k : Kind} {s : State} (h : Reachable k s) (hr : s.reader = .failed) :
    k = .stdio ∧ ∃ stop, Spec.Malformed stop ∧ Spec.Input s s.delivered stop :=
  (readInv h).2.failed hr

/-- C55: the reader panics only if it has read a message and the receiver is gone, or (socket only) the
input is malformed, or a header declares a length beyond `isize::MAX`. -/
theorem C55_panic {k : Kind} {s : State} (h : Reachable k s) (hr : s.reader = .panicked) :
    (s.rxAlive = false ∧ ∃ m used, s.arrived = used ++ s.unread ∧ Spec.Carries used (s.delivered ++ [m])) ∨
    (k = .socket ∧ ∃ stop, Spec.Malformed stop ∧ Spec.Input s s.delivered stop) ∨
    Spec.Input s s.delivered .panic :=
  (readInv h).2.panicked hr

/-- C55: the reader ends successfully only after exit or at a clean end of the input, with every message
of the input delivered. -/
theorem C55_done {k : Kind} {s : State} (h : Reachable k s) (hr : s.reader = .done) :
    (∃ ms, s.delivered = ms ++ [.notification .exit]) ∨
    (s.inEnd = some false ∧ readAll (⟨s.arrived, false⟩ : Flat) = (s.delivered, .eof)) := by
  rcases (readInv h).1.isDone hr with h1 | h1
  · exact .inl h1
  · exact .inr (input_eof h hr h1)

/-- How the reader must end when no message is left before `stop`. -/
def Spec.readerEnd : Kind → Stop → Reader
  | _, .eof => .done
  | _, .panic => .panicked
  | .stdio, _ => .failed
  | .socket, _ => .panicked

/-- C55, conversely: when all messages of the input are delivered and the reader reads on, it ends:
successfully at a clean end, otherwise with an error (stdio) or a panic (socket). -/
theorem C55_ends {k : Kind} {s : State} {stop : Stop} (h : Reachable k s) (hr : s.reader = .reading)
    (hi : Spec.Input s s.delivered stop) :
    (∃ s', Step k s .read s') ∧ ∀ s', Step k s .read s' → s'.reader = Spec.readerEnd k stop := by
  obtain ⟨⟨used, ps, hu, hp, hc⟩, _, _⟩ := (readInv h).1
  simp only [Spec.Pending, hr] at hp
  subst hp
  rw [List.append_nil] at hc
  have key : ∀ more b, readAll (⟨s.arrived ++ more, b⟩ : Flat) = (s.delivered, stop) →
      readMsg (⟨s.unread ++ more, b⟩ : Flat) = match stop with
        | .eof => .eof
        | .invalidData => .invalidData
        | .unexpectedEof => .unexpectedEof
        | .ioError => .ioError
        | .panic => .panic := by
    intro more b h1
    rw [hu, List.append_assoc, readAll_carries hc] at h1
    simp only [Prod.mk.injEq, List.append_right_eq_self] at h1
    rw [readAll_eq] at h1
    cases h2 : readMsg (⟨s.unread ++ more, b⟩ : Flat) with
    | item m r => simp [h2] at h1
    | _ => simp only [h2] at h1; obtain ⟨_, rfl⟩ := h1; rfl
  obtain ⟨r, hset, hend⟩ : ∃ r, Settled s r ∧ (afterRead k s r).reader = Spec.readerEnd k stop := by
    unfold Spec.Input at hi
    unfold Settled
    cases he : s.inEnd with
    | some b =>
      simp only [he] at hi
      have := key [] b (by simpa using hi)
      rw [List.append_nil] at this
      refine ⟨_, this, ?_⟩
      cases stop <;> cases k <;> rfl
    | none =>
      simp only [he] at hi
      have := fun more b => key more b (hi more b)
      cases stop with
      | eof => exact ⟨.eof, this, by cases k <;> rfl⟩
      | panic => exact ⟨.panic, this, by cases k <;> rfl⟩
      | invalidData => exact ⟨.invalidData, this, by cases k <;> rfl⟩
      | unexpectedEof => exact ⟨.unexpectedEof, this, by cases k <;> rfl⟩
      | ioError => exact ⟨.ioError, this, by cases k <;> rfl⟩
  refine ⟨⟨_, .read s r hr hset⟩, ?_⟩
  intro s' hs
  cases hs with
  | read _ _ h2 => rw [settled_unique h2 hset, hend]

/-- C55, conversely: with a message to deliver and no receiver left, the reader can only panic. -/
theorem C55_undeliverable {k : Kind} {s : State} {m : Message} (hr : s.reader = .sending m)
    (hx : s.rxAlive = false) :
    (∃ s', Step k s .undeliverable s' ∧ s'.reader = .panicked) ∧
      ∀ a s', Step k s a s' → s'.reader = .sending m ∨ s'.reader = .panicked := by
  refine ⟨⟨_, .undeliverable s m hr hx, rfl⟩, ?_⟩
  intro a s' hs
  cases hs with
  | read r h1 _ => rw [hr] at h1; cases h1
  | deliver m' _ h2 => rw [hx] at h2; cases h2
  | undeliverable _ _ _ => exact .inr rfl
  | _ => exact .inl hr

/-! ### C56 -/

/-- Only the arrival of bytes changes the bytes that have arrived; the output only grows. -/
theorem step_streams {k : Kind} {s s' : State} {a : Act} (hs : Step k s a s') :
    s.out <+: s'.out ∧ ((∀ bs, a ≠ .arrive bs) → s'.arrived = s.arrived) ∧
      (∀ bs, a = .arrive bs → s'.arrived = s.arrived ++ bs ∧ s'.out = s.out) ∧
      (s'.accepted = s.accepted ∨ ∃ m, s'.accepted = s.accepted ++ [m]) := by
  cases hs with
  | arrive bs h1 => simp
  | read r _ _ => cases r <;> simp [afterRead]
  | _ => simp

theorem pair_inv {ka kb : Kind} {p : Pair} (h : PairReachable ka kb p) :
    Reachable ka p.a ∧ Reachable kb p.b ∧ p.b.arrived <+: p.a.out ∧ p.a.arrived <+: p.b.out := by
  induction h with
  | start => exact ⟨⟨[], .nil _⟩, ⟨[], .nil _⟩, List.nil_prefix, List.nil_prefix⟩
  | step _ hs ih =>
    obtain ⟨h1, h2, h3, h4⟩ := ih
    cases hs with
    | left hs hn =>
      obtain ⟨h5, h6, _, _⟩ := step_streams hs
      exact ⟨reachable_step h1 hs, h2, h3.trans h5, by simpa only [h6 hn] using h4⟩
    | right hs hn =>
      obtain ⟨h5, h6, _, _⟩ := step_streams hs
      exact ⟨h1, reachable_step h2 hs, by simpa only [h6 hn] using h3, h4.trans h5⟩
    | toRight hp hs =>
      obtain ⟨_, _, h7, _⟩ := step_streams hs
      obtain ⟨h8, h9⟩ := h7 _ rfl
      exact ⟨h1, reachable_step h2 hs, by simpa only [h8] using hp, by simpa only [h9] using h4⟩
    | toLeft hp hs =>
      obtain ⟨_, _, h7, _⟩ := step_streams hs
      obtain ⟨h8, h9⟩ := h7 _ rfl
      exact ⟨reachable_step h1 hs, h2, by simpa only [h9] using h3, by simpa only [h8] using hp⟩

/-- The pair seen from the other side. -/
theorem pair_swap {ka kb : Kind} {p : Pair} (h : PairReachable ka kb p) :
    PairReachable kb ka ⟨p.b, p.a⟩ := by
  induction h with
  | start => exact .start
  | step _ hs ih =>
    refine .step ih ?_
    cases hs with
    | left hs hn => exact .right (p := ⟨_, _⟩) hs hn
    | right hs hn => exact .left (p := ⟨_, _⟩) hs hn
    | toRight hp hs => exact .toLeft (p := ⟨_, _⟩) hp hs
    | toLeft hp hs => exact .toRight (p := ⟨_, _⟩) hp hs

end

section
variable [LawfulExt] [FloatText]

/-- C56: under every schedule, what one side has received is what the other side has sent, in order, up
to the normal form of messages on the wire. -/
theorem C56_prefix {ka kb : Kind} {p : Pair} (h : PairReachable ka kb p)
    (ha : ∀ m ∈ p.a.accepted, Spec.WireOk m ∧ Spec.Carried m)
    (hb : ∀ m ∈ p.b.accepted, Spec.WireOk m ∧ Spec.Carried m) :
    p.b.delivered <+: p.a.accepted.map Message.norm ∧
    p.a.delivered <+: p.b.accepted.map Message.norm := by
  have key : ∀ {ka kb p}, PairReachable ka kb p →
      (∀ m ∈ p.a.accepted, Spec.WireOk m ∧ Spec.Carried m) →
      p.b.delivered <+: p.a.accepted.map Message.norm := by
    intro ka kb p h ha
    obtain ⟨h1, h2, h3, _⟩ := pair_inv h
    obtain ⟨more, hm⟩ := h3.trans (C53_output h1).1
    have := C51_prefix h2 more false
    rw [hm, C02_stream _ ha] at this
    exact this
  exact ⟨key h ha, key (pair_swap h) hb⟩

/-- C56: while the stream from the sender is up, the receiving reader does not fail, unless its
application has dropped the receiver. -/
theorem C56_no_error {ka kb : Kind} {p : Pair} (h : PairReachable ka kb p)
    (ha : ∀ m ∈ p.a.accepted, Spec.WireOk m ∧ Spec.Carried m) (hup : p.b.inEnd = none) :
    p.b.reader ≠ .failed ∧ (p.b.reader = .panicked → p.b.rxAlive = false) := by
  obtain ⟨h1, h2, h3, _⟩ := pair_inv h
  obtain ⟨more, hm⟩ := h3.trans (C53_output h1).1
  have key : ∀ ms stop, Spec.Input p.b ms stop → stop = .eof := by
    intro ms stop hi
    simp only [Spec.Input, hup] at hi
    have := hi more false
    rw [hm, C02_stream _ ha] at this
    cases this; rfl
  refine ⟨?_, ?_⟩
  · intro hr
    obtain ⟨_, stop, h4, h5⟩ := C55_error h2 hr
    have := key _ _ h5
    subst this; exact h4
  · intro hr
    rcases C55_panic h2 hr with h4 | ⟨_, stop, h4, h5⟩ | h4
    · exact h4.1
    · have := key _ _ h5
      subst this; exact h4.elim
    · have := key _ _ h4
      cases this

/-- C56: nothing is lost: when everything the sender has accepted has arrived, and the receiving reader
waits for input in vain, everything sent has been received. -/
theorem C56_all {ka kb : Kind} {p : Pair} (h : PairReachable ka kb p)
    (ha : ∀ m ∈ p.a.accepted, Spec.WireOk m ∧ Spec.Carried m)
    (harr : p.b.arrived = p.a.accepted.flatMap Frame.write) (hr : p.b.reader = .reading)
    (hstuck : ¬ ∃ s', Step kb p.b .read s') :
    p.b.delivered = p.a.accepted.map Message.norm := by
  obtain ⟨_, h2, _, _⟩ := pair_inv h
  obtain ⟨⟨used, ps, hu, hp, hc⟩, _, _⟩ := (readInv h2).1
  simp only [Spec.Pending, hr] at hp
  subst hp
  rw [List.append_nil] at hc
  have h3 := C02_stream _ ha
  rw [← harr, hu, readAll_carries hc] at h3
  cases h4 : readMsg (⟨p.b.unread, false⟩ : Flat) with
  | item m r =>
    exfalso; apply hstuck
    obtain ⟨r, b'⟩ := r
    refine ⟨_, .read _ (.item m ⟨r, p.b.inEnd.getD false⟩) hr ?_⟩
    have h5 := fun more c => readMsg_extension h4 more c
    unfold Settled
    cases he : p.b.inEnd with
    | none => exact h5
    | some b => simpa using h5 [] b
  | _ =>
    rw [readAll_eq, h4] at h3
    simp only [List.append_nil, Prod.mk.injEq] at h3
    exact h3.1

end

section
variable [Ext] [FloatText]

/-! ### C57 -/

/-- A bound for the number of steps left to a writer whose application is gone. -/
def workLeft : Writer → Nat
  | .writing rest => rest.length + 2
  | .idle => 1
  | _ => 0

theorem step_work {k : Kind} {s s' : State} {a : Act} (hd : s.reader = .done) (ht : s.txAlive = false)
    (hs : Step k s a s') :
    s'.txAlive = false ∧ (if a.thread then 1 else 0) + workLeft s'.writer ≤ workLeft s.writer := by
  cases hs with
  | read r h1 _ => rw [hd] at h1; cases h1
  | deliver m h1 _ => rw [hd] at h1; cases h1
  | undeliverable m h1 _ => rw [hd] at h1; cases h1
  | accept m _ h2 => rw [ht] at h2; cases h2
  | write a b h1 h2 =>
    have : 0 < a.length := List.length_pos_iff.2 h2
    simp only [Act.thread, h1, workLeft, List.length_append]
    exact ⟨ht, by simp; omega⟩
  | written h1 => exact ⟨ht, by simp [Act.thread, h1, workLeft]⟩
  | writeFails b h1 => exact ⟨ht, by cases k <;> simp [Act.thread, h1, workLeft, writeError]; all_goals omega⟩
  | close h1 _ => exact ⟨ht, by simp [Act.thread, h1, workLeft]⟩
  | dropTx => exact ⟨rfl, by simp [Act.thread]⟩
  | _ => exact ⟨ht, by simp [Act.thread]⟩

/-- C57: once exit has been delivered and the application has dropped its sender, there is a bound on the
number of steps the two threads still take, under every continuation; and in every state on the way
either both threads have ended or one of them can take a step. -/
theorem C57_ends {k : Kind} {s : State} (h : Reachable k s)
    (hx : Message.notification .exit ∈ s.delivered) (ht : s.txAlive = false) :
    ∃ n, ∀ as s', Steps k s as s' →
      (as.filter Act.thread).length ≤ n ∧
      ((s'.reader.ended = true ∧ s'.writer.ended = true) ∨
        ∃ a s'', a.thread = true ∧ Step k s' a s'') := by
  refine ⟨workLeft s.writer, ?_⟩
  intro as s' hs
  have key : s'.txAlive = false ∧
      (as.filter Act.thread).length + workLeft s'.writer ≤ workLeft s.writer := by
    induction hs with
    | nil => exact ⟨ht, by simp⟩
    | snoc h1 h2 ih =>
      obtain ⟨h3, h4⟩ := ih
      obtain ⟨h5, h6⟩ := step_work (C52_final h hx h1).2.1 h3 h2
      refine ⟨h5, ?_⟩
      rw [List.filter_append, List.length_append, List.filter_cons, List.filter_nil]
      rename_i a _
      cases ha : a.thread <;> simp [ha] at h6 ⊢ <;> omega
  have hd := (C52_final h hx hs).2.1
  refine ⟨by omega, ?_⟩
  cases hw : s'.writer with
  | idle => exact .inr ⟨_, _, rfl, .close s' hw key.1⟩
  | writing rest => exact .inr ⟨_, _, rfl, .writeFails s' rest hw⟩
  | done => exact .inl ⟨by rw [hd]; rfl, rfl⟩
  | failed => exact .inl ⟨by rw [hd]; rfl, rfl⟩
  | panicked => exact .inl ⟨by rw [hd]; rfl, rfl⟩

/-- C57: if moreover the operating system takes the bytes, one of them can take a step that is not a
failure. -/
theorem C57_progress {k : Kind} {s : State} (ht : s.txAlive = false) (hw : s.writer.ended = false) :
    ∃ a s', a.thread = true ∧ Step k s a s' ∧ s'.writer ≠ .failed ∧ s'.writer ≠ .panicked := by
  cases h : s.writer with
  | idle => exact ⟨_, _, rfl, .close s h ht, by simp, by simp⟩
  | writing rest =>
    cases rest with
    | nil => exact ⟨_, _, rfl, .written s h, by simp, by simp⟩
    | cons x rest => exact ⟨_, _, rfl, .write s [x] rest h (by simp), by simp, by simp⟩
  | done => rw [h] at hw; cases hw
  | failed => rw [h] at hw; cases hw
  | panicked => rw [h] at hw; cases hw

theorem no_write_failure {k : Kind} {s0 s : State} {as : List Act} (hs : Steps k s0 as s)
    (h0 : s0.writer = .idle) (hn : Act.writeFails ∉ as) :
    s.writer ≠ .failed ∧ s.writer ≠ .panicked := by
  induction hs with
  | nil => simp [h0]
  | snoc _ h2 ih =>
    simp only [List.mem_append, List.mem_singleton, not_or] at hn
    have := ih hn.1
    cases h2 with
    | read r _ _ => cases r <;> exact this
    | writeFails b _ => exact absurd rfl hn.2
    | accept m _ _ => simp
    | write a b _ _ => simp
    | written _ => simp
    | close _ _ => simp
    | _ => exact this

/-- C57: when both threads have ended after exit, `join` returns `Ok` unless a write has failed, and a
failed write is reported. -/
theorem C57_join {k : Kind} {as : List Act} {s : State} (hs : Steps k {} as s)
    (hx : Message.notification .exit ∈ s.delivered) (hw : s.writer.ended = true) :
    (Act.writeFails ∉ as → join k s = .ok) ∧
    (join k s ≠ .ok → s.writer = writeError k ∧ join k s ≠ .waiting) := by
  have hr : Reachable k s := ⟨as, hs⟩
  have hd := (C52_exit hr hx).1
  refine ⟨?_, ?_⟩
  · intro hn
    have := no_write_failure hs rfl hn
    unfold join
    cases h : s.writer with
    | failed => exact absurd h this.1
    | panicked => exact absurd h this.2
    | done => simp [hd]
    | idle => rw [h] at hw; cases hw
    | writing r => rw [h] at hw; cases hw
  · intro hj
    have hi := writeInv hr
    unfold join at hj ⊢
    cases h : s.writer with
    | failed =>
      simp only [WriteInv, h] at hi
      simp [hd, hi.1, writeError]
    | panicked =>
      simp only [WriteInv, h] at hi
      simp [hd, hi.1, writeError]
    | done => simp [hd, h] at hj
    | idle => rw [h] at hw; cases hw
    | writing r => rw [h] at hw; cases hw

/-! ### C58 -/

/-- C58: `join` returns `Ok` only after exit or a clean end of the input with all messages delivered, with
all senders dropped and every accepted message written. -/
theorem C58_ok {k : Kind} {s : State} (h : Reachable k s) (hj : join k s = .ok) :
    s.reader = .done ∧ s.writer = .done ∧ s.txAlive = false ∧
    s.out = s.accepted.flatMap Frame.write ∧
    ((∃ ms, s.delivered = ms ++ [.notification .exit]) ∨
      (s.inEnd = some false ∧ readAll (⟨s.arrived, false⟩ : Flat) = (s.delivered, .eof))) := by
  have key : s.reader = .done ∧ s.writer = .done := by
    unfold join at hj
    split at hj <;> try cases hj
    · split at hj <;> cases hj
    · rename_i h1
      split at hj <;> try cases hj
      rename_i h2
      exact ⟨h1, h2⟩
  exact ⟨key.1, key.2, (C54_drained h key.2).1, (C54_drained h key.2).2, C55_done h key.1⟩

omit [FloatText] in
/-- C58: `join` returns `Ok` if both threads have ended successfully. -/
theorem C58_ok_iff {k : Kind} {s : State} : join k s = .ok ↔ s.reader = .done ∧ s.writer = .done := by
  constructor
  · intro hj
    unfold join at hj
    split at hj <;> try cases hj
    · split at hj <;> cases hj
    · rename_i h1
      split at hj <;> try cases hj
      rename_i h2
      exact ⟨h1, h2⟩
  · rintro ⟨h1, h2⟩; unfold join; simp [h1, h2]

/-- C58: an error comes from malformed input, and then `join` does not wait for the writer (whatever the
writer is doing, the result is the same); or the reader has ended successfully and a write has failed
somewhere in the last accepted message. Both only with stdio. -/
theorem C58_err {k : Kind} {s : State} (h : Reachable k s) (hj : join k s = .err) :
    k = .stdio ∧
    (((∃ stop, Spec.Malformed stop ∧ Spec.Input s s.delivered stop) ∧
        ∀ w, join k { s with writer := w } = .err) ∨
     (s.reader = .done ∧ s.writer = .failed ∧
        ∃ ms m sent rest, s.accepted = ms ++ [m] ∧ Frame.write m = sent ++ rest ∧
          s.out = ms.flatMap Frame.write ++ sent)) := by
  cases hr : s.reader with
  | failed =>
    obtain ⟨e, h1⟩ := C55_error h hr
    exact ⟨e, .inl ⟨h1, fun w => by simp [join]⟩⟩
  | done =>
    cases hw : s.writer with
    | failed =>
      have := writeInv h
      simp only [WriteInv, hw] at this
      exact ⟨this.1, .inr ⟨rfl, rfl, this.2⟩⟩
    | _ => simp [join, hr, hw] at hj
  | panicked => simp only [join, hr] at hj; split at hj <;> cases hj
  | reading => simp [join, hr] at hj
  | sending m => simp [join, hr] at hj

omit [FloatText] in
/-- C58: `join` panics exactly if the reader has panicked (with stdio: and the writer has ended, in
whatever way), or the reader has ended successfully and the writer has panicked. -/
theorem C58_panic {k : Kind} {s : State} :
    (∃ line, join k s = .panic line) ↔
      (s.reader = .panicked ∧ (k = .stdio → s.writer.ended = true)) ∨
      (s.reader = .done ∧ s.writer = .panicked) := by
  cases hr : s.reader <;> cases hw : s.writer <;> cases k <;>
    simp [join, hr, hw, Writer.ended]

/-- C58: with stdio, a panic of the reader is not reported while the writer lives: if the application
keeps a sender and no write fails, `join` waits for ever. -/
theorem C58_stdout_lock {s s' : State} {as : List Act} (hr : s.reader = .panicked)
    (hw : s.writer.ended = false) (ht : s.txAlive = true) (hs : Steps .stdio s as s')
    (h1 : Act.dropTx ∉ as) (h2 : Act.writeFails ∉ as) : join .stdio s' = .waiting := by
  have key : s'.reader = .panicked ∧ s'.writer.ended = false ∧ s'.txAlive = true := by
    induction hs with
    | nil => exact ⟨hr, hw, ht⟩
    | snoc _ hs ih =>
      simp only [List.mem_append, List.mem_singleton, not_or] at h1 h2
      obtain ⟨h3, h4, h5⟩ := ih h1.1 h2.1
      have h6 := (step_done hs (by rw [h3]; rfl)).1
      refine ⟨h6.trans h3, ?_⟩
      cases hs with
      | read r h _ => rw [h3] at h; cases h
      | writeFails b _ => exact absurd rfl h2.2
      | dropTx => exact absurd rfl h1.2
      | close _ h => rw [h5] at h; cases h
      | accept m _ _ => exact ⟨rfl, h5⟩
      | write a b _ _ => exact ⟨rfl, h5⟩
      | written _ => exact ⟨rfl, h5⟩
      | _ => exact ⟨h4, h5⟩
  simp [join, key.1, key.2.1]

end

section
variable [LawfulExt] [FloatText]

/-- C58: the line that `join` prints on the standard output when the reader has panicked is rejected by
a peer, after the messages written. -/
theorem C58_line {s : State} {line : Bytes} (h : Reachable .stdio s)
    (hm : ∀ m ∈ s.accepted, Spec.WireOk m ∧ Spec.Carried m) (hw : s.writer = .done)
    (hj : join .stdio s = .panic line) (rest : Bytes) (b : Bool) :
    readAll (⟨stdoutAfter s line ++ rest, b⟩ : Flat) = (s.accepted.map Message.norm, .invalidData) := by
  have hl : line = utf8 "reader panicked!\n".toList := by
    unfold join at hj
    split at hj <;> try cases hj
    · split at hj <;> cases hj; rfl
    · rw [hw] at hj; cases hj
  subst hl
  rw [stdoutAfter, (C54_drained h hw).2]
  generalize s.accepted = ms at hm
  induction ms with
  | nil =>
    have hb : Spec.BadLine (utf8 "reader panicked!\n".toList) :=
      ⟨⟨utf8 "reader panicked!".toList, by decide, by decide⟩,
        .inr (.inl ⟨"reader panicked!\n".toList, rfl, stripCrlf_none.1 (by decide)⟩)⟩
    have : readText (⟨utf8 "reader panicked!\n".toList ++ rest, b⟩ : Flat) = .invalidData := by
      simpa [Spec.lines] using C05_bad_line [] (by simp [Spec.GoodLines]) _ hb rest b
    rw [List.flatMap_nil, List.nil_append, readAll_eq, readMsg, this]
    rfl
  | cons m ms ih =>
    obtain ⟨hw, hc⟩ := hm m (by simp)
    rw [List.flatMap_cons, List.append_assoc, List.append_assoc, readAll_eq, C12_wire m hw hc]
    rw [← List.append_assoc]
    simp only [ih (fun x hx => hm x (List.mem_cons_of_mem _ hx)), List.map_cons]

/-! ### Executions that meet the hypotheses -/

/-- A written message that has arrived is read. -/
theorem step_read_written {k : Kind} {s : State} {m : Message} {rest : Bytes} (hr : s.reader = .reading)
    (hu : s.unread = Frame.write m ++ rest) (hm : Spec.WireOk m ∧ Spec.Carried m) :
    Step k s .read { s with reader := .sending m.norm, unread := rest } := by
  have h : Settled s (.item m.norm ⟨rest, s.inEnd.getD false⟩) := by
    unfold Settled
    cases he : s.inEnd with
    | none => intro more b; rw [hu, List.append_assoc]; exact C12_wire m hm.1 hm.2 _ b
    | some b => rw [hu]; exact C12_wire m hm.1 hm.2 _ b
  exact .read s _ hr h

end

section
attribute [local instance] Ext.sample FloatText.sample

/-- A message the application sends in the examples. -/
def sampleOut : Message :=
  .response { id := .i32 3, result := some (.ofJson (.arr [.int (-1), .float ⟨5⟩])), error := none }

theorem sampleOut_ok : Spec.WireOk sampleOut ∧ Spec.Carried sampleOut :=
  sample_ok _ (by simp [sampleMessages, sampleOut])

theorem exit_ok : Spec.WireOk (.notification .exit) ∧ Spec.Carried (.notification .exit) :=
  sample_ok _ (by simp [sampleMessages])

/-- Exit has arrived, followed by three bytes, and has been delivered; meanwhile the application has sent a
message of which five bytes are written, and has dropped its connection. -/
def sampleExit : State where
  arrived := Frame.write (.notification .exit) ++ [1, 2, 3]
  unread := [1, 2, 3]
  reader := .done
  rxAlive := false
  delivered := [.notification .exit]
  writer := .writing ((Frame.write sampleOut).drop 5)
  out := (Frame.write sampleOut).take 5
  txAlive := false
  accepted := [sampleOut]

theorem sampleExit_reachable (k : Kind) : Reachable k sampleExit := by
  have e : Frame.write sampleOut = (Frame.write sampleOut).take 5 ++ (Frame.write sampleOut).drop 5 := by simp
  have h0 : Reachable k {} := ⟨[], .nil _⟩
  have h1 := reachable_step h0 (.arrive _ (Frame.write (.notification .exit) ++ [1, 2, 3]) rfl)
  have h2 := reachable_step h1 (.accept _ sampleOut rfl rfl)
  have h3 := reachable_step h2 (step_read_written (m := .notification .exit) (rest := [1, 2, 3]) rfl
    (by simp) exit_ok)
  have h4 := reachable_step h3 (.write _ ((Frame.write sampleOut).take 5) ((Frame.write sampleOut).drop 5)
    (congrArg Writer.writing e) (by decide))
  have h5 := reachable_step h4 (.deliver _ (.notification .exit) rfl rfl)
  have h6 := reachable_step h5 (.dropRx _)
  have h7 := reachable_step h6 (.dropTx _)
  exact h7

/-- Beside C51–C54 and C57. -/
example (k : Kind) (b : Bool) : [Message.notification .exit] <+:
    (readAll (⟨sampleExit.arrived ++ [], b⟩ : Flat)).1 := C51_prefix (sampleExit_reachable k) [] b

example (k : Kind) : ∃ used, sampleExit.arrived = used ++ [1, 2, 3] ∧
    Spec.Carries used [.notification .exit] :=
  (C52_exit (sampleExit_reachable k) (by simp [sampleExit])).2.2

example (k : Kind) (as : List Act) (s' : State) (h : Steps k sampleExit as s') :
    s'.delivered = [.notification .exit] :=
  (C52_final (sampleExit_reachable k) (by simp [sampleExit]) h).1

example (k : Kind) : (Frame.write sampleOut).take 5 <+: [sampleOut].flatMap Frame.write :=
  (C53_output (sampleExit_reachable k)).1

example (k : Kind) : ∃ n, ∀ as s', Steps k sampleExit as s' →
    (as.filter Act.thread).length ≤ n ∧
      ((s'.reader.ended = true ∧ s'.writer.ended = true) ∨
        ∃ a s'', a.thread = true ∧ Step k s' a s'') :=
  C57_ends (sampleExit_reachable k) (by simp [sampleExit]) rfl

/-- The same connection after the rest has been written and the writer has ended. -/
def sampleEnd : State :=
  { sampleExit with writer := .done, out := Frame.write sampleOut }

theorem sampleEnd_steps (k : Kind) :
    ∃ as, Steps k sampleExit as sampleEnd ∧ Act.writeFails ∉ as := by
  have e : Frame.write sampleOut = (Frame.write sampleOut).take 5 ++ (Frame.write sampleOut).drop 5 := by simp
  have h1 : Steps k sampleExit [.write ((Frame.write sampleOut).drop 5)] _ :=
    .snoc (.nil _) (.write _ ((Frame.write sampleOut).drop 5) [] (by simp [sampleExit]) (by decide))
  have h2 := Steps.snoc h1 (.written _ rfl)
  have h3 := Steps.snoc h2 (.close _ rfl rfl)
  have : sampleEnd = { sampleExit with
      writer := .done
      out := (Frame.write sampleOut).take 5 ++ (Frame.write sampleOut).drop 5 } := by
    rw [← e]; rfl
  rw [this]
  exact ⟨_, h3, by simp⟩

theorem sampleEnd_reachable (k : Kind) : Reachable k sampleEnd := by
  obtain ⟨as, h, _⟩ := sampleEnd_steps k
  exact reachable_steps (sampleExit_reachable k) h

/-- Beside C54, C57 and C58. -/
example (k : Kind) : sampleEnd.out = [sampleOut].flatMap Frame.write :=
  (C54_drained (sampleEnd_reachable k) rfl).2

example (k : Kind) : join k sampleEnd = .ok := C58_ok_iff.2 ⟨rfl, rfl⟩

example (k : Kind) : sampleEnd.txAlive = false := (C58_ok (sampleEnd_reachable k) rfl).2.2.1

/-- A message has arrived after the application has dropped its connection, for which a message had been
written: the reader has panicked. -/
def samplePanic : State where
  arrived := Frame.write (.notification .exit)
  unread := []
  reader := .panicked
  rxAlive := false
  delivered := []
  writer := .done
  out := Frame.write sampleOut
  txAlive := false
  accepted := [sampleOut]

theorem samplePanic_reachable (k : Kind) : Reachable k samplePanic := by
  have h0 : Reachable k {} := ⟨[], .nil _⟩
  have h1 := reachable_step h0 (.accept _ sampleOut rfl rfl)
  have h2 := reachable_step h1 (.write _ (Frame.write sampleOut) [] (by simp) (by decide))
  have h3 := reachable_step h2 (.written _ rfl)
  have h4 := reachable_step h3 (.dropRx _)
  have h5 := reachable_step h4 (.arrive _ (Frame.write (.notification .exit)) rfl)
  have h6 := reachable_step h5 (step_read_written (m := .notification .exit) (rest := []) rfl
    (by simp) exit_ok)
  have h7 := reachable_step h6 (.undeliverable _ (.notification .exit) rfl rfl)
  have h8 := reachable_step h7 (.dropTx _)
  have h9 := reachable_step h8 (.close _ rfl rfl)
  exact h9

/-- Beside C55 and C58: the panic, and what a peer makes of the output. -/
example (k : Kind) : ∃ line, join k samplePanic = .panic line :=
  C58_panic.2 (.inl ⟨rfl, fun _ => rfl⟩)

example (b : Bool) :
    readAll (⟨stdoutAfter samplePanic (utf8 "reader panicked!\n".toList) ++ [], b⟩ : Flat) =
      ([sampleOut].map Message.norm, .invalidData) :=
  C58_line (samplePanic_reachable .stdio) (by simpa [samplePanic] using sampleOut_ok) rfl
    (by simp [join, samplePanic, Writer.ended]) [] b

example : (samplePanic.rxAlive = false ∧ ∃ m used, samplePanic.arrived = used ++ samplePanic.unread ∧
      Spec.Carries used (samplePanic.delivered ++ [m])) ∨
    (Kind.stdio = .socket ∧ ∃ stop, Spec.Malformed stop ∧ Spec.Input samplePanic samplePanic.delivered stop) ∨
    Spec.Input samplePanic samplePanic.delivered .panic :=
  C55_panic (samplePanic_reachable .stdio) rfl

/-- Malformed input: a header line without CR, on a stream that is still open. -/
def sampleBad : State where
  arrived := [120, 10]
  unread := [120, 10]

theorem sampleBad_reachable (k : Kind) : Reachable k sampleBad :=
  reachable_step ⟨[], .nil _⟩ (.arrive _ [120, 10] rfl)

theorem sampleBad_input : Spec.Input sampleBad [] .invalidData := by
  intro more b
  have hb : Spec.BadLine [120, 10] := ⟨⟨[120], by decide, by decide⟩,
    .inr (.inl ⟨['x', '\n'], by decide, stripCrlf_none.1 (by decide)⟩)⟩
  have : readText (⟨[120, 10] ++ more, b⟩ : Flat) = .invalidData := by
    simpa [Spec.lines] using C05_bad_line [] (by simp [Spec.GoodLines]) _ hb more b
  rw [readAll_eq, readMsg]
  simp only [sampleBad, this]

/-- Beside C55. -/
example (k : Kind) : (∃ s', Step k sampleBad .read s') ∧
    ∀ s', Step k sampleBad .read s' → s'.reader = Spec.readerEnd k .invalidData :=
  C55_ends (sampleBad_reachable k) rfl sampleBad_input

/-- Two connections: one side has sent a message, the other side has received it. -/
def samplePair : Pair where
  a := { accepted := [.notification .exit], out := Frame.write (.notification .exit), writer := .writing [] }
  b := { arrived := Frame.write (.notification .exit), reader := .done, delivered := [.notification .exit] }

theorem samplePair_reachable (ka kb : Kind) : PairReachable ka kb samplePair := by
  have h1 : PairReachable ka kb _ := .step .start (.left (.accept _ (.notification .exit) rfl rfl) (by simp))
  have h2 := PairReachable.step h1
    (.left (.write _ (Frame.write (.notification .exit)) [] (by simp) (by decide)) (by simp))
  have h3 := PairReachable.step h2
    (.toRight (bs := Frame.write (.notification .exit)) (by simp) (.arrive _ _ rfl))
  have h4 := PairReachable.step h3 (.right (step_read_written (m := .notification .exit) (rest := []) rfl
    (by simp) exit_ok) (by simp))
  have h5 := PairReachable.step h4 (.right (.deliver _ (.notification .exit) rfl rfl) (by simp))
  exact h5

/-- Beside C56. -/
example : samplePair.b.delivered <+: samplePair.a.accepted.map Message.norm :=
  (C56_prefix (samplePair_reachable .stdio .socket) (by simpa [samplePair] using exit_ok)
    (by simp [samplePair])).1

example : samplePair.b.reader ≠ .failed :=
  (C56_no_error (samplePair_reachable .stdio .socket) (by simpa [samplePair] using exit_ok) rfl).1

/-- Two connections: a message has been sent and received, and both sides are still up. -/
def samplePair2 : Pair where
  a := { accepted := [sampleOut], out := Frame.write sampleOut, writer := .idle }
  b := { arrived := Frame.write sampleOut, delivered := [sampleOut.norm] }

theorem samplePair2_reachable (ka kb : Kind) : PairReachable ka kb samplePair2 := by
  have h1 : PairReachable ka kb _ := .step .start (.left (.accept _ sampleOut rfl rfl) (by simp))
  have h2 := PairReachable.step h1
    (.left (.write _ (Frame.write sampleOut) [] (by simp) (by decide)) (by simp))
  have h3 := PairReachable.step h2
    (.toRight (bs := Frame.write sampleOut) (by simp) (.arrive _ _ rfl))
  have h4 := PairReachable.step h3 (.right (step_read_written (m := sampleOut) (rest := []) rfl
    (by simp) sampleOut_ok) (by simp))
  have h5 := PairReachable.step h4 (.right (.deliver _ sampleOut.norm rfl rfl) (by simp))
  have h6 := PairReachable.step h5 (.left (.written _ rfl) (by simp))
  exact h6

example : samplePair2.b.delivered = [sampleOut].map Message.norm :=
  C56_all (samplePair2_reachable .stdio .socket) (by simpa [samplePair2] using sampleOut_ok)
    (by simp [samplePair2]) rfl (fun ⟨_, h⟩ => no_read rfl rfl h)

/-- Beside C51: the next message has come while the reader waits. -/
example (k : Kind) : ∃ s' : State,
    Step k { arrived := Frame.write sampleOut, unread := Frame.write sampleOut } .read s' := by
  obtain ⟨_, f, cs, j, hf, hl, hj, hd, hu⟩ := readMsg_item_iff.1 (C12_wire sampleOut sampleOut_ok.1
    sampleOut_ok.2 [] false)
  exact (C51_progress (k := k) (rest := []) rfl (by simpa using hu) hf hl hj hd).1

/-- Beside C53: the state before a message is accepted, and a writer that has failed. -/
example (k : Kind) (s' : State) (h : Step k samplePair2.a (.accept sampleOut) s') :
    samplePair2.a.out = [sampleOut].flatMap Frame.write :=
  C53_one_at_a_time (pair_inv (samplePair2_reachable k k)).1 h

/-- The write of a message has failed after five bytes. -/
def sampleFailed (k : Kind) : State where
  reader := .done
  inEnd := some false
  writer := writeError k
  out := (Frame.write sampleOut).take 5
  accepted := [sampleOut]

theorem sampleFailed_reachable (k : Kind) : Reachable k (sampleFailed k) := by
  have e : Frame.write sampleOut = (Frame.write sampleOut).take 5 ++ (Frame.write sampleOut).drop 5 := by simp
  have h0 : Reachable k {} := ⟨[], .nil _⟩
  have h1 := reachable_step h0 (.accept _ sampleOut rfl rfl)
  have h2 := reachable_step h1 (.write _ ((Frame.write sampleOut).take 5) ((Frame.write sampleOut).drop 5)
    (congrArg Writer.writing e) (by decide))
  have h3 := reachable_step h2 (.writeFails _ _ rfl)
  have h4 := reachable_step h3 (.hangUp _ false rfl)
  have h5 := reachable_step h4 (.read _ .eof rfl readMsg_nil.1)
  exact h5

example (k : Kind) (as : List Act) (s' : State) (h : Steps k (sampleFailed k) as s') :
    s'.out = (Frame.write sampleOut).take 5 :=
  (C53_final (by cases k <;> rfl) h).1

example (k : Kind) : (sampleFailed k).writer = writeError k :=
  C54_alive (sampleFailed_reachable k) rfl (by cases k <;> rfl)

/-- Beside C58. -/
example : ∃ ms m sent rest, (sampleFailed .stdio).accepted = ms ++ [m] ∧ Frame.write m = sent ++ rest ∧
    (sampleFailed .stdio).out = ms.flatMap Frame.write ++ sent := by
  rcases (C58_err (sampleFailed_reachable .stdio) rfl).2 with ⟨_, h⟩ | ⟨_, _, h⟩
  · exact absurd (h .done) (by simp [join, sampleFailed])
  · exact h

example : ∃ line, join .socket (sampleFailed .socket) = .panic line :=
  C58_panic.2 (.inr ⟨rfl, rfl⟩)

/-- Beside C54: the application is gone and nothing is left to write. -/
example (k : Kind) : ∃ s', Step k { samplePair2.a with txAlive := false } .close s' :=
  (C54_close rfl rfl).1

/-- Beside C55: a message to deliver and nobody to receive it. -/
example (k : Kind) (a : Act) (s' : State)
    (h : Step k { reader := .sending sampleOut, rxAlive := false } a s') :
    s'.reader = .sending sampleOut ∨ s'.reader = .panicked :=
  (C55_undeliverable rfl rfl).2 a s' h

/-- Beside C57. -/
example (k : Kind) : ∃ as, Steps k {} as sampleEnd ∧ join k sampleEnd = .ok := by
  obtain ⟨as, h⟩ := sampleEnd_reachable k
  refine ⟨as, h, ?_⟩
  by_cases hj : join k sampleEnd = .ok
  · exact hj
  · have := ((C57_join h (by simp [sampleEnd, sampleExit]) rfl).2 hj).1
    cases k <;> cases this

example (k : Kind) : ∃ a s', a.thread = true ∧ Step k sampleExit a s' ∧ s'.writer ≠ .failed ∧
    s'.writer ≠ .panicked := C57_progress rfl rfl

/-- Beside C58: the reader has panicked, the application still has its sender. -/
example (as : List Act) (s' : State)
    (h : Steps .stdio { samplePanic with writer := .idle, txAlive := true } as s')
    (h1 : Act.dropTx ∉ as) (h2 : Act.writeFails ∉ as) : join .stdio s' = .waiting :=
  C58_stdout_lock rfl rfl rfl h h1 h2

end
end Bsp
