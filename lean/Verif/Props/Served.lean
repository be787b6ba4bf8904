/-
C115: what a server that keeps to the published protocol sends, at a connection of this library.
-/
import Verif.Props.Rpc

set_option linter.unusedSectionVars false

namespace Bsp
open Frame Json Spec Protocol Transport

section
variable [LawfulExt] [FloatText] {k : Kind}

/-- What a connection of the library makes of responses and notifications: a response with the id and the result or an
error (a null result is lost), a notification of that method.
For stating things about bsp-server/src/message.rs:32-40. -/
inductive Spec.Hears : List Json → List Message → Prop
  | nil : Hears [] []
  | response : IsResponse r.id.enc j →
      (∀ v, Part "result" j v → r.error = none ∧ r.result = if v = .null then none else some (Value.ofJson v)) →
      (∀ e, Part "error" j e → r.result = none ∧ ∃ x, r.error = some x ∧ Part "code" e (.int x.code.toInt) ∧
        Part "message" e (.str x.message)) →
      Hears js ms → Hears (j :: js) (.response r :: ms)
  | notification : Part "method" j (.str n.method) → Hears js ms → Hears (j :: js) (.notification n :: ms)

omit [FloatText] in
theorem hears_dec {js : List Json} (hj : ∀ j ∈ js, Told j ∨ ∃ i, IsResponse i j ∧ Matches .intOrStr i)
    (hx : ∀ j ∈ js, ¬ Part "method" j (.str "build/exit")) :
    ∃ ms : List Message, js.map Message.dec = ms.map some ∧ Spec.Hears js ms ∧ Message.notification .exit ∉ ms := by
  induction js with
  | nil => exact ⟨[], rfl, .nil, by simp⟩
  | cons j js ih =>
    obtain ⟨ms, h1, h2, h3⟩ := ih (fun j h => hj j (by simp [h])) (fun j h => hx j (by simp [h]))
    rcases hj j (by simp) with h | ⟨i, h, hi⟩
    · obtain ⟨n, h4, h5⟩ := told_dec h
      refine ⟨.notification n :: ms, by simp [h4, h1], .notification h5 h2, ?_⟩
      intro he
      rcases List.mem_cons.1 he with he | he
      · cases he
        exact hx j (by simp) h5
      · exact h3 he
    · obtain ⟨r, h4, rfl, h5, h6⟩ := C113_read_partial h hi
      refine ⟨.response r :: ms, by simp [h4, h1], .response h h5 ?_ h2, by simp [h3]⟩
      intro e he
      obtain ⟨h7, x, h8, h9, h10, _⟩ := h6 e he
      exact ⟨h7, x, h8, h9, h10⟩

/-- C115: while only responses and notifications of the protocol have arrived, with ids that are understood and times in 32
bits, and no exit notification, the reader has not ended; what the application has received are, in order, the messages for
the first of them; and all of them once the reader waits for more. -/
theorem C115_partial {s : State} (h : Reachable k s) (hr : s.rxAlive = true) {js : List Json} (hf : Frames s.arrived js)
    (hi : s.inEnd = none) (hj : ∀ j ∈ js, Told j ∨ ∃ i, IsResponse i j ∧ Matches .intOrStr i)
    (hx : ∀ j ∈ js, ¬ Part "method" j (.str "build/exit")) :
    s.reader.ended = false ∧
    ∃ ms : List Message, Spec.Hears js ms ∧ s.delivered <+: ms ∧
      (s.reader = .reading → (¬ ∃ s', Step k s .read s') → s.delivered = ms) := by
  obtain ⟨ms, h1, h2, h3⟩ := hears_dec hj hx
  have hc := frames_carries hf h1
  have hall : readAll (⟨s.arrived, false⟩ : Frame.Flat) = (ms, .eof) := by
    have := readAll_carries hc [] false
    rw [List.append_nil, readAll_eq (⟨[], false⟩ : Frame.Flat), readMsg_nil.1] at this
    simpa using this
  have hp : s.delivered <+: ms := by
    have := C51_prefix h [] false
    rwa [List.append_nil, hall] at this
  have hin : ∀ {stop : Frame.Stop}, Spec.Input s s.delivered stop → stop = .eof := by
    intro stop hs
    simp only [Spec.Input, hi] at hs
    have := hs [] false
    rw [List.append_nil, hall] at this
    exact (Prod.mk.inj this).2.symm
  refine ⟨?_, ms, h2, hp, ?_⟩
  · cases hrd : s.reader with
    | reading => rfl
    | sending m => rfl
    | done =>
      rcases C55_done h hrd with ⟨x, hd⟩ | ⟨he, _⟩
      · exact absurd (hp.subset (by simp [hd])) h3
      · simp [hi] at he
    | failed =>
      obtain ⟨_, stop, hm, hs⟩ := C55_error h hrd
      rw [hin hs] at hm
      exact hm.elim
    | panicked =>
      rcases C55_panic h hrd with ⟨ha, _⟩ | ⟨_, stop, hm, hs⟩ | hs
      · simp [hr] at ha
      · rw [hin hs] at hm
        exact hm.elim
      · cases hin hs
  · intro hrd hst
    obtain ⟨used, ps, hu, hpe, hca⟩ := (readInv h).1.frames
    simp only [Spec.Pending, hrd] at hpe
    subst hpe
    rw [List.append_nil] at hca
    have hall' := readAll_carries hca s.unread false
    rw [← hu, hall] at hall'
    rw [readAll_eq (⟨s.unread, false⟩ : Frame.Flat)] at hall'
    split at hall'
    · rename_i m s' hm
      obtain ⟨_, f, cs, j, g1, g2, g3, g4, g5⟩ := (readMsg_item_iff (r := s'.1) (b' := s'.2)).1 hm
      exact absurd (C51_progress hrd g5 g1 g2 g3 g4).1 hst
    all_goals simpa using (Prod.mk.inj hall').1.symm

/-- The first document that the library cannot read as a message ends the connection. -/
theorem served_refused {s : State} (h : Reachable k s) {bs rest : Bytes} {js : List Json} {j : Json}
    (ha : s.arrived = bs ++ rest) (hf : Frames bs (js ++ [j]))
    (hj : ∀ j ∈ js, Told j ∨ ∃ i, IsResponse i j ∧ Matches .intOrStr i)
    (hx : ∀ j ∈ js, ¬ Part "method" j (.str "build/exit")) (hno : Message.dec j = none) :
    ∃ ms : List Message, Spec.Hears js ms ∧ s.delivered <+: ms ∧ s.reader ≠ .done ∧ join k s ≠ .ok ∧
      (s.reader = .reading → s.delivered = ms →
        (∃ s', Step k s .read s') ∧ ∀ s', Step k s .read s' → s'.reader = Spec.readerEnd k .invalidData) := by
  obtain ⟨ms, h1, h2, h3⟩ := hears_dec hj hx
  obtain ⟨bs', f, cs, rfl, hf', g1, g2, g3⟩ : ∃ bs' f cs, bs = bs' ++ f ∧ Frames bs' js ∧ Spec.IsFrame f cs ∧
      (utf8 cs).length ≤ 2 ^ 63 - 1 ∧ Gram.JsonText 127 cs j := by
    generalize hl : js ++ [j] = l at hf
    cases hf with
    | nil => simp at hl
    | snoc a b c d =>
      obtain ⟨h1, h2⟩ := List.append_inj' hl rfl
      subst h1
      rw [List.singleton_inj] at h2
      subst h2
      exact ⟨_, _, _, rfl, a, b, c, d⟩
  have hc := frames_carries hf' h1
  have hall : ∀ more b, readAll (⟨s.arrived ++ more, b⟩ : Frame.Flat) = (ms, .invalidData) := by
    intro more b
    have hm : Frame.readMsg (⟨f ++ (rest ++ more), b⟩ : Frame.Flat) = .invalidData := by
      have h1 := (C08_exactly_one_frame (f ++ (rest ++ more)) (rest ++ more) b b cs).2 ⟨rfl, g2, f, g1, rfl⟩
      unfold Frame.readMsg
      rw [h1]
      simp [Text.parse_iff.2 g3, hno]
    have := readAll_carries hc (f ++ (rest ++ more)) b
    rw [readAll_eq (⟨f ++ (rest ++ more), b⟩ : Frame.Flat), hm] at this
    simpa [ha] using this
  have hpre : s.delivered <+: ms := by
    have := C51_prefix h [] false
    rwa [hall] at this
  have hin : Spec.Input s ms .invalidData := by
    unfold Spec.Input
    split
    · have := hall []; rw [List.append_nil] at this; exact this _
    · exact hall
  have hd : s.reader ≠ .done := by
    intro hrd
    rcases C55_done h hrd with ⟨x, hd⟩ | ⟨_, he⟩
    · exact h3 (hpre.subset (by simp [hd]))
    · have := hall [] false
      rw [List.append_nil, he] at this
      cases this
  refine ⟨ms, h2, hpre, hd, fun hk => hd (C58_ok_iff.1 hk).1, ?_⟩
  intro hrd he
  exact C55_ends h hrd (he ▸ hin)

/-- C115 fails: the first task event at a time that is not in 32 bits (any time after February 1970) ends the connection:
the application gets at most what came before, the reader does not end with success, nor does `join`, and once the messages
before have been received the reader has no choice but to fail. -/
theorem C115_violated {s : State} (h : Reachable k s) {bs rest : Bytes} {js : List Json} {j p : Json} {m : String} {t : Int}
    (ha : s.arrived = bs ++ rest) (hf : Frames bs (js ++ [j]))
    (hj : ∀ j ∈ js, Told j ∨ ∃ i, IsResponse i j ∧ Matches .intOrStr i)
    (hx : ∀ j ∈ js, ¬ Part "method" j (.str "build/exit"))
    (hn : IsNotification m j) (hm : m ∈ ["build/taskStart", "build/taskFinish"]) (hp : Part "params" j p)
    (ht : Part "eventTime" p (.int t)) (h32 : t < 0 ∨ 2 ^ 32 ≤ t) :
    ∃ ms : List Message, Spec.Hears js ms ∧ s.delivered <+: ms ∧ s.reader ≠ .done ∧ join k s ≠ .ok ∧
      (s.reader = .reading → s.delivered = ms →
        (∃ s', Step k s .read s') ∧ ∀ s', Step k s .read s' → s'.reader = Spec.readerEnd k .invalidData) :=
  served_refused h ha hf hj hx (C110_violated_time hn hp hm ht h32)

/-- C115 fails in the one other way left: so does the first response whose id is a number beyond 32 bits, a fraction or
null, all of which JSON-RPC allows. -/
theorem C115_violated_id {s : State} (h : Reachable k s) {bs rest : Bytes} {js : List Json} {i j : Json}
    (ha : s.arrived = bs ++ rest) (hf : Frames bs (js ++ [j]))
    (hj : ∀ j ∈ js, Told j ∨ ∃ i, IsResponse i j ∧ Matches .intOrStr i)
    (hx : ∀ j ∈ js, ¬ Part "method" j (.str "build/exit"))
    (hr : IsResponse i j) (hi : ¬ Matches .intOrStr i) :
    ∃ ms : List Message, Spec.Hears js ms ∧ s.delivered <+: ms ∧ s.reader ≠ .done ∧ join k s ≠ .ok ∧
      (s.reader = .reading → s.delivered = ms →
        (∃ s', Step k s .read s') ∧ ∀ s', Step k s .read s' → s'.reader = Spec.readerEnd k .invalidData) :=
  served_refused h ha hf hj hx (C113_violated hr hi)

end

/-! ### Cases -/

section
attribute [local instance] Ext.sample FloatText.sample Dbg.sample

/-- A response and the start of a task. Sample, not in /repo. -/
def serverTalk (t : Int) : List Json :=
  [.obj [("jsonrpc", .str "2.0"), ("id", .int 9), ("result", .bool true)], tellStart t]

set_option maxRecDepth 5000 in
theorem serverTalk_frames : Frames ((serverTalk 12).flatMap fun j => frame (Text.print j)) (serverTalk 12) ∧
    Frames ((serverTalk 1794787200000).flatMap fun j => frame (Text.print j)) (serverTalk 1794787200000) := by
  constructor <;> refine frames_printed ?_ <;> intro x hx <;>
    simp only [serverTalk, List.mem_cons, List.not_mem_nil, or_false] at hx <;> rcases hx with rfl | rfl
  all_goals
    refine ⟨by decide, by simp [tellStart, Spec.Numbers, Spec.NumbersMembers, Spec.NumbersList], by decide⟩

theorem reply_is : IsResponse (.int 9) (.obj [("jsonrpc", .str "2.0"), ("id", .int 9), ("result", .bool true)]) :=
  (C113_written_partial ⟨.i32 9, some (Value.ofJson (.bool true)), none⟩).2 (by simp)

theorem reply_no_method {m : String} :
    ¬ Part "method" (.obj [("jsonrpc", .str "2.0"), ("id", .int 9), ("result", .bool true)]) (.str m) :=
  fun h => absurd (once_not (once_inj.1 h)) (by simp [keys])

theorem arrived (k : Kind) (bs : Bytes) : Reachable k { arrived := bs, unread := bs } :=
  ⟨[.arrive bs], .snoc (.nil _) (.arrive _ bs rfl)⟩

/-- Beside C115_partial. -/
example (k : Kind) : ∃ s : State, Reachable k s ∧ s.reader.ended = false ∧ ∃ ms, Spec.Hears (serverTalk 12) ms ∧ s.delivered <+: ms := by
  have h := C115_partial (arrived k _) rfl serverTalk_frames.1 rfl (by
    intro j hj
    simp only [serverTalk, List.mem_cons, List.not_mem_nil, or_false] at hj
    rcases hj with rfl | rfl
    · exact .inr ⟨_, reply_is, .inr ⟨9, rfl, by decide, by decide⟩⟩
    · refine .inl ⟨_, tellStart_is 12 (by decide) (by decide), ?_⟩
      rintro p t ⟨_, h0, hp⟩ ⟨ps, rfl, ht⟩ _
      cases h0
      have := once_unique hp ⟨[_, _], [], rfl, by simp [keys], by simp [keys]⟩
      cases this
      cases once_unique ht ⟨[_], [], rfl, by simp [keys], by simp [keys]⟩
      decide) (by
    intro j hj
    simp only [serverTalk, List.mem_cons, List.not_mem_nil, or_false] at hj
    rcases hj with rfl | rfl
    · exact reply_no_method
    · exact fun h => by simpa using only (a := [_]) (b := [_]) h (by simp [keys]) (by simp [keys]))
  obtain ⟨h1, ms, h2, h3, _⟩ := h
  exact ⟨_, arrived k _, h1, ms, h2, h3⟩

/-- Beside C115_violated: a task starts on 16 November 2026. -/
example (k : Kind) : ∃ s : State, Reachable k s ∧ s.arrived ≠ [] ∧ join k s ≠ .ok := by
  obtain ⟨ms, _, _, _, h, _⟩ := C115_violated (j := tellStart 1794787200000)
    (js := [.obj [("jsonrpc", .str "2.0"), ("id", .int 9), ("result", .bool true)]]) (rest := [])
    (arrived k _) (List.append_nil _).symm serverTalk_frames.2 (by
      intro j hj
      rw [List.mem_singleton] at hj
      subst hj
      exact .inr ⟨_, reply_is, .inr ⟨9, rfl, by decide, by decide⟩⟩) (by
      intro j hj
      rw [List.mem_singleton] at hj
      subst hj
      exact reply_no_method) (tellStart_is _ (by decide) (by decide)) (by simp)
    ⟨_, rfl, [_, _], [], rfl, by simp [keys], by simp [keys]⟩ ⟨_, rfl, [_], [], rfl, by simp [keys], by simp [keys]⟩
    (.inr (by decide))
  exact ⟨_, arrived k _, by simp [serverTalk, frame], h⟩

/-- What a server says of a message that it could not read: JSON-RPC gives such a response the id null. Sample, not in
/repo. -/
def unreadReply : Json :=
  .obj [("jsonrpc", .str "2.0"), ("id", .null), ("error", .obj [("code", .int (-32700)), ("message", .str "Parse error")])]

/-- Beside C115_violated_id: the server could not read what the client said, and says so. -/
example (k : Kind) : ∃ s : State, Reachable k s ∧ s.arrived ≠ [] ∧ join k s ≠ .ok := by
  obtain ⟨ms, _, _, _, h, _⟩ := C115_violated_id (j := unreadReply) (js := []) (rest := []) (i := .null)
    (bs := ([unreadReply].flatMap fun j => frame (Text.print j)))
    (arrived k _) (List.append_nil _).symm (frames_printed (by
      intro x hx
      rw [List.mem_singleton] at hx
      subst hx
      exact ⟨by decide, by simp [unreadReply, Spec.Numbers, Spec.NumbersMembers], by decide⟩))
    (by simp) (by simp) ⟨_, rfl, ⟨[], [_, _], rfl, by simp [keys], by simp [keys]⟩,
      ⟨[_], [_], rfl, by simp [keys], by simp [keys]⟩, by simp [keys], .inr
      ⟨_, ⟨[_, _], [], rfl, by simp [keys], by simp [keys]⟩, ⟨_, rfl,
        .inr ⟨_, ⟨[], [_], rfl, by simp [keys], by simp [keys]⟩, by simp [Matches, integer]⟩,
        .inr ⟨_, ⟨[_], [], rfl, by simp [keys], by simp [keys]⟩, by simp [Matches]⟩,
        .inl ⟨by simp [keys], rfl⟩, trivial⟩, by simp [keys]⟩⟩ (by simp [Matches])
  exact ⟨_, arrived k _, by simp [unreadReply, frame], h⟩

end
end Bsp
