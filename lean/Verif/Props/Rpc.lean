/-
C113, C114: responses as JSON-RPC 2.0 has them, and a client that keeps to the published protocol at the server of the
README (specification in Verif/Rpc.lean).
-/
import Verif.Rpc
import Verif.Props.Protocol
import Verif.Props.Peer

set_option linter.unusedSectionVars false

namespace Bsp
open Json Spec Protocol Session

section
variable [LawfulExt]

/-! ### C113 -/

theorem once_not {k : String} {ms : Members} {v : Json} (h : Spec.Once k ms v) : k ∈ keys ms := once_not_lacks h

theorem once_inj {k : String} {ms : Members} {v : Json} : Part k (.obj ms) v ↔ Spec.Once k ms v := by
  constructor
  · rintro ⟨_, h, h'⟩; cases h; exact h'
  · intro h; exact ⟨_, rfl, h⟩

theorem noMethod_not_req {ms : Members} (h : "method" ∉ keys ms) : ¬ ∃ q, UsableRequest (.obj ms) q := by
  rintro ⟨q, ms', i, m, p, id, h0, _, _, h3, _⟩
  cases h0
  exact h (once_not h3)

theorem noMethod_not_not {ms : Members} (h : "method" ∉ keys ms) : ¬ ∃ q, UsableNotification (.obj ms) q := by
  rintro ⟨q, ms', m, h0, h3, _⟩
  cases h0
  exact h (once_not h3)

/-- The error of the code for an error object. -/
theorem errorObject_read {e : Json} (h : Matches errorObject e) : ∃ x : ResponseError, ErrOf e x ∧ e ≠ .null ∧
    Part "code" e (.int x.code.toInt) ∧ Part "message" e (.str x.message) ∧
    ((Lacks "data" e ∧ x.data = none) ∨
      ∃ d, Part "data" e d ∧ x.data = if d = .null then none else some (Value.ofJson d)) := by
  simp only [errorObject, Matches, HasAll] at h
  obtain ⟨ms, rfl, h1, h2, h3, _⟩ := h
  obtain ⟨c, hc, c', rfl, h4, h5⟩ : ∃ j, Spec.Once "code" ms j ∧ ∃ c, j = .int c ∧ -2 ^ 31 ≤ c ∧ c < 2 ^ 31 := by
    rcases h1 with ⟨_, h⟩ | ⟨j, h, h'⟩
    · cases h
    · simp only [integer, Matches] at h'
      exact ⟨j, h, h'⟩
  obtain ⟨_, hm, t, rfl⟩ : ∃ j, Spec.Once "message" ms j ∧ ∃ t, j = .str t := by
    rcases h2 with ⟨_, h⟩ | ⟨j, h, h'⟩
    · cases h
    · exact ⟨j, h, h'⟩
  have hid : IdOf (.int c') (.i32 (Int32.ofInt c')) := IdOf.num c' ⟨h4, h5⟩
  have hto : (Int32.ofInt c').toInt = c' := Int32.toInt_ofInt_of_le (by omega) (by omega)
  rcases h3 with ⟨h3, _⟩ | ⟨d, h3, _⟩
  · refine ⟨⟨Int32.ofInt c', t, none⟩, .inl ⟨ms, c', rfl, hc, hid, hm, .inl ⟨h3, rfl⟩⟩, by simp, ?_, once_inj.2 hm, .inl ⟨⟨_, rfl, h3⟩, rfl⟩⟩
    rw [hto]; exact once_inj.2 hc
  · refine ⟨⟨Int32.ofInt c', t, if d = .null then none else some (Value.ofJson d)⟩, .inl ⟨ms, c', rfl, hc, hid, hm, ?_⟩,
      by simp, ?_, once_inj.2 hm, .inr ⟨d, once_inj.2 h3, rfl⟩⟩
    · by_cases hd : d = .null
      · subst hd; exact .inr (.inl ⟨h3, by simp⟩)
      · exact .inr (.inr ⟨d, _, h3, hd, rfl, by simp [hd]⟩)
    · rw [hto]; exact once_inj.2 hc

/-- C113: a response of JSON-RPC whose id is a string or a 32-bit integer is taken for a response with that id and its
result or its error, except that a result null is gone (as is null for the data of an error). -/
theorem C113_read_partial {i j : Json} (h : IsResponse i j) (hi : Matches .intOrStr i) :
    ∃ r, Message.dec j = some (.response r) ∧ r.id.enc = i ∧
      (∀ v, Part "result" j v → r.error = none ∧ r.result = if v = .null then none else some (Value.ofJson v)) ∧
      (∀ e, Part "error" j e → r.result = none ∧ ∃ x, r.error = some x ∧
        Part "code" e (.int x.code.toInt) ∧ Part "message" e (.str x.message) ∧
        ((Lacks "data" e ∧ x.data = none) ∨
          ∃ d, Part "data" e d ∧ x.data = if d = .null then none else some (Value.ofJson d))) := by
  obtain ⟨ms, rfl, _, h2, h3, h4⟩ := h
  obtain ⟨id, hid, hide⟩ := fits_id hi
  have hr := noMethod_not_req h3
  simp only [once_inj]
  rcases h4 with ⟨v, hv, he⟩ | ⟨e, he, hm, hv⟩
  · refine ⟨⟨id, if v = .null then none else some (Value.ofJson v), none⟩, (C14_response _ _).2 ⟨hr, .inl ⟨ms, i, rfl, h2, hid, ?_,
      .inl ⟨he, rfl⟩⟩⟩, hide, ?_, ?_⟩
    · by_cases hn : v = .null
      · subst hn; exact .inr (.inl ⟨hv, by simp⟩)
      · exact .inr (.inr ⟨v, _, hv, hn, rfl, by simp [hn]⟩)
    · intro v' hv'; cases once_unique hv hv'; exact ⟨rfl, rfl⟩
    · intro e he'; exact absurd (once_not he') he
  · obtain ⟨x, h5, h6, h7⟩ := errorObject_read hm
    refine ⟨⟨id, none, some x⟩, (C14_response _ _).2 ⟨hr, .inl ⟨ms, i, rfl, h2, hid, .inl ⟨hv, rfl⟩, .inr (.inr ⟨e, x, he, h6, h5, rfl⟩)⟩⟩,
      hide, ?_, ?_⟩
    · intro v hv'; exact absurd (once_not hv') hv
    · intro e' he'; cases once_unique he he'; exact ⟨rfl, x, rfl, by simpa only [once_inj] using h7⟩

/-- C113 fails: a response with any other id (null, which JSON-RPC prescribes where the id of the request could not be
found out, or a number that is no 32-bit integer) is no message at all, which is the end of the connection (C79). -/
theorem C113_violated {i j : Json} (h : IsResponse i j) (hi : ¬ Matches .intOrStr i) : Message.dec j = none := by
  obtain ⟨ms, rfl, _, h2, h3, _⟩ := h
  rw [C14_rejected]
  refine ⟨noMethod_not_req h3, ?_, noMethod_not_not h3⟩
  rintro ⟨r, ⟨ms', i', h0, h4, h5, _⟩ | ⟨_, _, _, h0, _⟩⟩
  · cases h0
    cases once_unique h2 h4
    apply hi
    generalize r.id = id at h5
    cases h5 with
    | num n h => exact .inr ⟨n, rfl, h.1, h.2⟩
    | str s => exact .inl ⟨s, rfl⟩
  · cases h0

/-- C113: a response is written as JSON-RPC has it if and only if it has one of result and error and not both; all those
that the constructors make are (C25). -/
theorem C113_written_partial (r : Response) :
    IsResponse r.id.enc (Message.enc (.response r)) ↔ (r.result = none ↔ r.error ≠ none) := by
  have he : ∀ e : ResponseError, Matches errorObject e.enc := by
    intro e
    have hc : Matches integer (encI32 e.code) := by
      have := e.code.toInt_lt; have := e.code.le_toInt
      simp only [Matches, integer, encI32]
      exact ⟨_, rfl, by omega, by omega⟩
    parts [errorObject, ResponseError.enc, hc]
  obtain ⟨id, res, err⟩ := r
  simp only [IsResponse, Message.enc, Message.members, Response.members, once_iff, Bsp.Once, keys_named, Json.obj.injEq]
  constructor
  · rintro ⟨ms, rfl, _, _, _, h⟩
    cases res <;> cases err <;> simp [named, fld, skipNone] at h ⊢
  · intro h
    refine ⟨_, rfl, ?_, ?_, ?_, ?_⟩
    · cases res <;> cases err <;> simp [named, fld, skipNone]
    · cases res <;> cases err <;> simp [named, fld, skipNone]
    · cases res <;> cases err <;> simp [named, fld, skipNone]
    · cases res <;> cases err <;> simp [named, fld, skipNone, he] at h ⊢

/-- C113 fails: a response with a result null (such as that to shutdown) is, when it is passed on, no response of
JSON-RPC any more. -/
theorem C113_violated_null {i j : Json} (h : IsResponse i j) (hi : Matches .intOrStr i) (hr : Part "result" j .null) :
    ∃ r, Message.dec j = some (.response r) ∧ r.id.enc = i ∧ ∀ i', ¬ IsResponse i' (Message.enc (.response r)) := by
  obtain ⟨r, h1, h2, h3, _⟩ := C113_read_partial h hi
  obtain ⟨h4, h5⟩ := h3 _ hr
  refine ⟨r, h1, h2, ?_⟩
  obtain ⟨id, res, err⟩ := r
  cases h4; simp only [if_true] at h5; subst h5
  rintro i' ⟨ms, h0, _, _, _, h⟩
  simp only [Message.enc, Message.members, Response.members, Json.obj.injEq] at h0
  subst h0
  simp [once_iff, Bsp.Once, keys_named, named, fld, skipNone] at h

/-! ### C114 -/

theorem heard_dec {m : String} {i j : Json} (h : Heard m i j) :
    ∃ r, Message.dec j = some (.request r) ∧ r.id.enc = i ∧ r.method = m ∧ Part "method" j (.str r.method) := by
  obtain ⟨p, h1, h2, h3, h4, h5⟩ := h
  have hm : Part "method" j (.str m) := by
    obtain ⟨ms, _, rfl, _, _, h, _⟩ := h1
    exact once_inj.2 h
  by_cases hinv : m = "buildTarget/inverseSources"
  · subst hinv
    have : ∃ id, IdOf i id ∧ id.enc = i := by
      obtain ⟨ms, _, rfl, _, ⟨i', h6, h7⟩, _⟩ := h1
      cases once_unique (once_inj.1 h2) h6
      exact fits_id h7
    obtain ⟨id, hid, hide⟩ := this
    exact ⟨_, C110_violated_inverse h1 h2 hid h3, hide, rfl, hm⟩
  · obtain ⟨r, h6, h7, h8, _⟩ := C110_request_partial h1 h2 h3
      (by simp only [List.mem_cons, not_or] at h4 ⊢; simp [h4, hinv]) h5
    exact ⟨r, h6, h7, h8, h8 ▸ hm⟩

theorem lost_dec {j : Json} (h : Lost j) : ∃ id, Message.dec j = some (.response ⟨id, none, none⟩) := by
  obtain ⟨m, h1, h2⟩ := h
  have : ∃ i id, Part "id" j i ∧ IdOf i id := by
    obtain ⟨ms, _, rfl, _, ⟨i, h6, h7⟩, _⟩ := h1
    obtain ⟨id, hid, _⟩ := fits_id h7
    exact ⟨i, id, once_inj.2 h6, hid⟩
  obtain ⟨i, id, hi, hid⟩ := this
  exact ⟨id, C110_violated_lost h1 hi hid h2⟩

theorem told_dec {j : Json} (h : Told j) :
    ∃ n, Message.dec j = some (.notification n) ∧ Part "method" j (.str n.method) := by
  obtain ⟨m, h1, h2⟩ := h
  have hm : Part "method" j (.str m) := by
    obtain ⟨ms, _, rfl, _, _, h, _⟩ := h1
    exact once_inj.2 h
  by_cases hp : m = "build/taskProgress"
  · subst hp
    have : ∃ p, Part "params" j p := by
      obtain ⟨ms, s, rfl, _, _, _, h3, h4⟩ := h1
      rcases h4 with ⟨rfl, _⟩ | ⟨p, h5, _⟩
      · simp [Protocol.notifications, taskProgressWith] at h3
      · exact ⟨p, once_inj.2 h5⟩
    obtain ⟨p, h5⟩ := this
    exact ⟨_, C110_violated_progress h1 h5, hm⟩
  · obtain ⟨n, h3, h4, _⟩ := C110_notification_partial h1 hp h2
    exact ⟨n, h3, h4 ▸ hm⟩

/-- The method and the id of a request. For stating things about bsp-server/src/request.rs:59-75, 337-469. -/
def asked (r : Request) : String × Json := (r.method, r.id.enc)

/-- What the server gets of what the client sends. -/
theorem asks_dec {js : List Json} {is : List (String × Json)} (h : Asks js is)
    (hn : ∀ j ∈ js, (Part "method" j (.str "build/shutdown") → Lacks "params" j) ∧ ¬ Part "method" j (.str "build/exit")) :
    ∃ ms : List Message, js.map Message.dec = ms.map some ∧ (Spec.requests ms).map asked = is ∧
      Spec.NoShutdown ms ∧ Message.notification .exit ∉ ms := by
  have key : ∀ {j : Json} {js : List Json} {is is' : List (String × Json)} {m : Message}, Message.dec j = some m →
      (∃ ms : List Message, js.map Message.dec = ms.map some ∧ (Spec.requests ms).map asked = is ∧
        Spec.NoShutdown ms ∧ Message.notification .exit ∉ ms) →
      (Spec.requests [m]).map asked ++ is = is' → Spec.NoShutdown [m] → Message.notification .exit ≠ m →
      ∃ ms : List Message, (j :: js).map Message.dec = ms.map some ∧ (Spec.requests ms).map asked = is' ∧
        Spec.NoShutdown ms ∧ Message.notification .exit ∉ ms := by
    rintro j js is is' m hd ⟨ms, h1, h2, h3, h4⟩ h5 h6 h7
    refine ⟨m :: ms, by simp [hd, h1], ?_, ?_, by simp [h4, h7]⟩
    · rw [show m :: ms = [m] ++ ms from rfl, requests_append, List.map_append, h2, h5]
    · intro id h
      rcases List.mem_cons.1 h with h | h
      · exact h6 id (by simp [h])
      · exact h3 id h
  induction h with
  | nil => exact ⟨[], rfl, rfl, by simp [Spec.NoShutdown], by simp⟩
  | heard hj _ ih =>
    obtain ⟨r, h1, h2, h2', h3⟩ := heard_dec hj
    refine key h1 (ih fun j hj => hn j (by simp [hj])) (by simp [Spec.requests, asked, h2, h2']) ?_ (by simp)
    intro id h
    simp only [List.mem_singleton, Message.request.injEq] at h
    subst h
    obtain ⟨ms, rfl, h4⟩ := (hn _ (by simp)).1 h3
    obtain ⟨_, _, _, h5, _⟩ := hj
    exact h4 (once_not (once_inj.1 h5))
  | lost hj _ ih =>
    obtain ⟨id, h1⟩ := lost_dec hj
    exact key h1 (ih fun j hj => hn j (by simp [hj])) (by simp [Spec.requests]) (by simp [Spec.NoShutdown]) (by simp)
  | told hj _ ih =>
    obtain ⟨n, h1, h3⟩ := told_dec hj
    refine key h1 (ih fun j hj => hn j (by simp [hj])) (by simp [Spec.requests]) (by simp [Spec.NoShutdown]) ?_
    intro h
    cases h
    exact (hn _ (by simp)).2 h3
  | answered hj hi _ ih =>
    obtain ⟨r, h1, _⟩ := C113_read_partial hj hi
    exact key h1 (ih fun j hj => hn j (by simp [hj])) (by simp [Spec.requests]) (by simp [Spec.NoShutdown]) (by simp)

variable [FloatText]

theorem frames_carries {bs : Bytes} {js : List Json} (h : Frames bs js) :
    ∀ {ms : List Message}, js.map Message.dec = ms.map some → Spec.Carries bs ms := by
  induction h with
  | nil => intro ms h; cases ms with
    | nil => exact .nil
    | cons => simp at h
  | @snoc bs js f cs j h1 h2 h3 h4 ih =>
    intro ms h
    rw [List.map_append] at h
    obtain ⟨a, b, rfl, ha, hb⟩ := List.map_eq_append_iff.1 h.symm
    match b, hb with
    | [m], hb =>
      simp only [List.map_cons, List.map_nil, List.cons.injEq, and_true] at hb
      exact .snoc (ih ha.symm) h2 h3 h4 hb.symm
    | [], hb => simp at hb
    | _ :: _ :: _, hb => simp at hb

omit [FloatText] in
theorem answers_append {a c : List (String × Json)} {b d : List Json} (h : Answers a b) (h' : Answers c d) :
    Answers (a ++ c) (b ++ d) := by
  induction h with
  | nil => exact h'
  | cons h1 _ ih => exact .cons h1 ih

omit [FloatText] in
/-- A response with a result of the right type, or with an error. -/
theorem answer_result {m : String} {s : Shape} {id : RequestId} {v : Value} (h : (m, s) ∈ resultTypes) (hv : Matches s v.json) :
    IsAnswer m id.enc (Message.enc (.response ⟨id, some v, none⟩)) := by
  refine ⟨(C113_written_partial _).2 (by simp), ?_⟩
  intro w hw
  have : Part "result" (Message.enc (.response ⟨id, some v, none⟩)) v.json := by
    refine once_inj.2 ((once_iff ..).2 ?_)
    simp [Bsp.Once, Message.members, Response.members, named, fld, skipNone]
  cases once_unique (once_inj.1 hw) (once_inj.1 this)
  exact ⟨s, h, hv⟩

omit [FloatText] in
theorem answer_error {m : String} {id : RequestId} {e : ResponseError} :
    IsAnswer m id.enc (Message.enc (.response ⟨id, none, some e⟩)) := by
  refine ⟨(C113_written_partial _).2 (by simp), ?_⟩
  intro w hw
  refine absurd (once_not (once_inj.1 hw)) ?_
  simp [keys, Message.members, Response.members, fld, skipNone]

omit [FloatText] in
theorem replies_answers {rs : List Request} {ms : List Message} (h : Spec.Replies rs ms) :
    Answers (rs.map asked) (ms.map Message.enc) := by
  induction h with
  | nil => exact .nil
  | @cons r m rs ms h _ ih =>
    refine .cons ?_ ih
    obtain ⟨⟨id, res, err⟩, rfl, h1, h2⟩ := h
    simp only at h1
    subst h1
    split at h2
    · obtain ⟨h2, h3⟩ := h2
      cases res with
      | none => simp at h2
      | some v =>
        simp only [Option.map_some, Option.some.injEq] at h2 h3
        subst h3
        refine answer_result (s := buildTargetsResult) (by simp [Request.method, resultTypes]) ?_
        have : Matches (.list buildTarget) (.arr []) := by simp [Matches]
        rw [h2]
        parts [buildTargetsResult, named, this]
    · obtain ⟨h2, h3⟩ := h2
      cases res with
      | none => simp at h2
      | some v =>
        simp only [Option.map_some, Option.some.injEq] at h2 h3
        subst h3
        refine answer_result (s := sourcesResult) (by simp [Request.method, resultTypes]) ?_
        rw [h2]
        parts [sourcesResult, named]
        simp [Matches]
    · obtain ⟨h2, t, h3⟩ := h2
      simp only at h2 h3
      subst h2 h3
      exact answer_error

omit [FloatText] in
theorem served_answers {id : RequestId} {v : Value} {later : List Request} {ms : List Message}
    (h : Spec.Served [] id v later ms) : ∃ rest, ms = .response ⟨id, some v, none⟩ :: rest ∧
      Answers (later.map asked) (rest.map Message.enc) := by
  obtain ⟨refs, rs, rfl, h1, h2⟩ := h
  cases h1
  exact ⟨rs, rfl, replies_answers h2⟩

omit [FloatText] in
/-- The value of a handler that returns an `InitializeBuildResult`. -/
theorem init_answer {id : RequestId} (x : InitializeBuildResult) :
    IsAnswer "build/initialize" id.enc (Message.enc (.response ⟨id, some (Value.ofJson x.enc), none⟩)) :=
  answer_result (s := initializeBuildResult) (by simp [resultTypes]) (matches_canon _ _ (C112_results.1 x))

omit [FloatText] in
/-- The opening of a session. -/
theorem opening {a b ia : Json} (ha : IsRequest "build/initialize" a) (hia : Part "id" a ia)
    (hb : IsNotification "build/initialized" b) :
    ∃ id ip, Message.dec a = some (.request (.initializeBuild id ip)) ∧ id.enc = ia ∧
      Message.dec b = some (.notification .initialized) := by
  have hp : ∃ p, Part "params" a p := by
    obtain ⟨ms, s, rfl, _, _, _, h3, h4, _⟩ := ha
    rcases h4 with ⟨rfl, _⟩ | ⟨p, h5, _⟩
    · simp [Protocol.requests, initializeBuildParams] at h3
    · exact ⟨p, once_inj.2 h5⟩
  obtain ⟨p, hp⟩ := hp
  obtain ⟨r, h1, h2, h3, h4⟩ := C110_request_partial ha hia hp (by decide) (fun h => absurd h (by decide))
  obtain ⟨n, h5, h6, h7⟩ := C110_notification_partial hb (by decide) (by intros; simp_all)
  have hr : ∃ id ip, r = .initializeBuild id ip := by
    cases r <;> simp [Request.method] at h3 h4 ⊢
  have hn : n = .initialized := by
    cases n <;> simp [Notification.method] at h6 h7 ⊢
  obtain ⟨id, ip, rfl⟩ := hr
  subst hn
  exact ⟨id, ip, h1, h2, h5⟩

variable [Conn.Dbg] {process : InitializeBuild → Option Value} {k : Transport.Kind}

/-- C114: a client that keeps to the protocol opens a session, sends any requests, notifications and responses, and asks
the server to shut down with `params: null`, and to exit.  If no write fails and the exit notification is not late, the
process, once it can go no further, has exited with success, and its output is exactly one response of JSON-RPC for each
of the requests that the code takes for requests, in order.  (Missing: the other requests.) -/
theorem C114_partial {p : Session.Proc} {as : List Session.Act} (h : Session.Steps k process {} as p)
    (hw : Session.Act.writeFails ∉ as) (ht : Session.Act.timeout ∉ as) (hq : Quiet k process p)
    {bs rest : Bytes} {a b c d ia ic : Json} {js : List Json}
    {is : List (String × Json)} (hbs : p.io.arrived = bs ++ rest)
    (hf : Frames bs ([a, b] ++ js ++ [c, d])) (ha : IsRequest "build/initialize" a) (hia : Part "id" a ia)
    (hb : IsNotification "build/initialized" b) (hj : Asks js is)
    (hn : ∀ j ∈ js, (Part "method" j (.str "build/shutdown") → Lacks "params" j) ∧ ¬ Part "method" j (.str "build/exit"))
    (hc : IsRequest "build/shutdown" c) (hic : Part "id" c ic) (hpc : Part "params" c .null)
    (hd : IsNotification "build/exit" d) (hv : ∀ ip, ∃ x : InitializeBuildResult, process ip = some (Value.ofJson x.enc)) :
    p.exit = some true ∧
    ∃ ms : List Message, Answers ([("build/initialize", ia)] ++ is ++ [("build/shutdown", ic)]) (ms.map Message.enc) ∧
      p.io.out = ms.flatMap Frame.write := by
  obtain ⟨id, ip, h1, rfl, h2⟩ := opening ha hia hb
  obtain ⟨ms, h3, rfl, h4, h5⟩ := asks_dec hj hn
  obtain ⟨r, h6, rfl, h7, h8⟩ := C110_request_partial hc hic hpc (by decide) (fun h => absurd h (by decide))
  have hr : ∃ id, r = .shutdown id := by cases r <;> simp [Request.method] at h7 h8 ⊢
  obtain ⟨sid, rfl⟩ := hr
  obtain ⟨n, h9, h10, h11⟩ := C110_notification_partial hd (by decide) (by intros; simp_all)
  have hx : n = .exit := by cases n <;> simp [Notification.method] at h10 h11 ⊢
  subst hx
  obtain ⟨x, hv⟩ := hv ip
  obtain ⟨h12, out, h13, h14⟩ := C73_session (early := []) (id := id) (sid := sid) (pre := ms) h hw ht hq hbs
    (frames_carries hf (by simp [Spec.session, h1, h2, h3, h6, h9])) (by simp) hv h4 h5
  refine ⟨h12, _, ?_, h14⟩
  obtain ⟨rest, rfl, h15⟩ := served_answers h13
  rw [List.map_append]
  exact answers_append (.cons (init_answer x) h15) (.cons (answer_result (s := .null) (by simp [resultTypes]) rfl) .nil)

theorem answers_only {is : List (String × Json)} {js : List Json} (h : Answers is js) {i j : Json} (hj : j ∈ js)
    (hi : IsResponse i j) : i ∈ is.map (·.2) := by
  induction h with
  | nil => cases hj
  | @cons m i' j' is js h1 _ ih =>
    rcases List.mem_cons.1 hj with rfl | hj
    · obtain ⟨⟨ms, rfl, _, h2, _⟩, _⟩ := h1
      obtain ⟨_, h0, _, h3, _⟩ := hi
      cases h0
      cases once_unique h2 h3
      simp
    · exact List.mem_cons_of_mem _ (ih hj)

/-- C114 fails: if the client leaves out the params of the shutdown request, as it may, or asks to compile, to test, for
the sources of dependencies, or to run with arguments, there is no answer to that: the output has responses to the
other requests and to no other id. -/
theorem C114_violated {p : Session.Proc} {as : List Session.Act} (h : Session.Steps k process {} as p)
    (hw : Session.Act.writeFails ∉ as) (hq : Quiet k process p)
    {bs rest : Bytes} {a b d ia : Json} {js : List Json}
    {is : List (String × Json)} (hbs : p.io.arrived = bs ++ rest)
    (hf : Frames bs ([a, b] ++ js ++ [d])) (ha : IsRequest "build/initialize" a) (hia : Part "id" a ia)
    (hb : IsNotification "build/initialized" b) (hj : Asks js is)
    (hn : ∀ j ∈ js, (Part "method" j (.str "build/shutdown") → Lacks "params" j) ∧ ¬ Part "method" j (.str "build/exit"))
    (hd : IsNotification "build/exit" d) (hv : ∀ ip, ∃ x : InitializeBuildResult, process ip = some (Value.ofJson x.enc)) :
    p.exit = some true ∧
    ∃ ms : List Message, Answers ([("build/initialize", ia)] ++ is) (ms.map Message.enc) ∧ p.io.out = ms.flatMap Frame.write ∧
      ∀ j ∈ js, ∀ i, Lost j → Part "id" j i → i ∉ ia :: is.map (·.2) → ∀ m ∈ ms, ¬ IsResponse i m.enc := by
  obtain ⟨id, ip, h1, rfl, h2⟩ := opening ha hia hb
  obtain ⟨ms, h3, rfl, h4, h5⟩ := asks_dec hj hn
  obtain ⟨n, h9, h10, h11⟩ := C110_notification_partial hd (by decide) (by intros; simp_all)
  have hx : n = .exit := by cases n <;> simp [Notification.method] at h10 h11 ⊢
  subst hx
  obtain ⟨x, hv⟩ := hv ip
  obtain ⟨h12, out, h13, h14⟩ := C74_exit (early := []) (id := id) (pre := ms) h hw hq hbs
    (frames_carries hf (by simp [Spec.session, h1, h2, h3, h9])) (by simp) hv h4 h5
  obtain ⟨rest, rfl, h15⟩ := served_answers h13
  have h15 := Answers.cons (init_answer (id := id) x) h15
  refine ⟨h12, .response ⟨id, some (Value.ofJson x.enc), none⟩ :: rest, h15, h14, ?_⟩
  intro j _ i _ _ hi m hm h
  exact hi (answers_only h15 (List.mem_map_of_mem hm) h)

omit [Conn.Dbg] [FloatText] in
theorem documented_wrong {ip : InitializeBuild} {v : Value} (h : documented ip = some v) :
    ¬ Matches initializeBuildResult v.json ∧ InitializeBuildResult.dec v.json = none := by
  have hj : ∃ j, v.json = .obj [("Ok", j)] := by
    cases h
    exact ⟨_, rfl⟩
  obtain ⟨j, hj⟩ := hj
  rw [hj]
  constructor
  · unfold initializeBuildResult
    rw [matches_obj, hasAll_cons]
    simp [named, partOk_none]
  · simp only [InitializeBuildResult.dec, structSrc]
    split <;> simp [Src.req, Src.get, List.lookup]

/-- C114 fails: of a server with the handler given in the documentation of `initialize`, the first answer has a result that
is not of the type of the protocol, and that the library's own type refuses. -/
theorem C114_violated_documented {p : Session.Proc} {as : List Session.Act} (h : Session.Steps k documented {} as p)
    (hw : Session.Act.writeFails ∉ as) (hq : Quiet k documented p)
    {bs rest : Bytes} {a b d ia : Json} {js : List Json} {is : List (String × Json)} (hbs : p.io.arrived = bs ++ rest)
    (hf : Frames bs ([a, b] ++ js ++ [d])) (ha : IsRequest "build/initialize" a) (hia : Part "id" a ia)
    (hb : IsNotification "build/initialized" b) (hj : Asks js is)
    (hn : ∀ j ∈ js, (Part "method" j (.str "build/shutdown") → Lacks "params" j) ∧ ¬ Part "method" j (.str "build/exit"))
    (hd : IsNotification "build/exit" d) :
    p.exit = some true ∧
    ∃ (m : Message) (ms : List Message), p.io.out = (m :: ms).flatMap Frame.write ∧ Answers is (ms.map Message.enc) ∧
      IsResponse ia m.enc ∧ ¬ IsAnswer "build/initialize" ia m.enc ∧
      ∃ v, Part "result" m.enc v ∧ InitializeBuildResult.dec v = none := by
  obtain ⟨id, ip, h1, rfl, h2⟩ := opening ha hia hb
  obtain ⟨ms, h3, rfl, h4, h5⟩ := asks_dec hj hn
  obtain ⟨n, h9, h10, h11⟩ := C110_notification_partial hd (by decide) (by intros; simp_all)
  have hx : n = .exit := by cases n <;> simp [Notification.method] at h10 h11 ⊢
  subst hx
  obtain ⟨v, hv⟩ : ∃ v, documented ip = some v := ⟨_, rfl⟩
  obtain ⟨h12, out, h13, h14⟩ := C74_exit (early := []) (id := id) (pre := ms) h hw hq hbs
    (frames_carries hf (by simp [Spec.session, h1, h2, h3, h9])) (by simp) hv h4 h5
  obtain ⟨rest, rfl, h15⟩ := served_answers h13
  have hp : Part "result" (Message.enc (.response ⟨id, some v, none⟩)) v.json := by
    refine once_inj.2 ((once_iff ..).2 ?_)
    simp [Bsp.Once, Message.members, Response.members, named, fld, skipNone]
  obtain ⟨h16, h17⟩ := documented_wrong hv
  refine ⟨h12, _, rest, h14, h15, (C113_written_partial _).2 (by simp), ?_, _, hp, h17⟩
  rintro ⟨_, h18⟩
  obtain ⟨s, h19, h20⟩ := h18 _ hp
  simp only [resultTypes, List.mem_cons, Prod.mk.injEq] at h19
  simp at h19
  exact h16 (h19 ▸ h20)

omit [Conn.Dbg] in
theorem frames_printed {js : List Json}
    (h : ∀ j ∈ js, Spec.nest j ≤ 127 ∧ Spec.Numbers j ∧ (utf8 (Text.print j)).length ≤ 2 ^ 63 - 1) :
    Frames (js.flatMap fun j => Frame.frame (Text.print j)) js := by
  have key : ∀ (js : List Json) bs js0, Frames bs js0 →
      (∀ j ∈ js, Spec.nest j ≤ 127 ∧ Spec.Numbers j ∧ (utf8 (Text.print j)).length ≤ 2 ^ 63 - 1) →
      Frames (bs ++ js.flatMap fun j => Frame.frame (Text.print j)) (js0 ++ js) := by
    intro js
    induction js with
    | nil => intro bs ms0 h _; simpa using h
    | cons j js ih =>
      intro bs js0 h0 h
      obtain ⟨h1, h2, h3⟩ := h j (by simp)
      have h5 : Frame.readText (⟨Frame.frame (Text.print j) ++ [], false⟩ : Frame.Flat) = .item (Text.print j) ⟨[], false⟩ :=
        C01_frame (Text.print j) h3 [] false
      obtain ⟨_, hl, f, hf, h6⟩ := (C08_exactly_one_frame ..).1 h5
      simp only [List.append_nil] at h6
      have := ih _ _ (Frames.snoc h0 hf hl (Text.parse_iff.1 (Text.parse_print h1 h2))) (fun x hx => h x (by simp [hx]))
      rw [← h6] at this
      simpa using this
  simpa using key js [] [] .nil h

end

/-! ### Cases -/

section
attribute [local instance] Ext.sample FloatText.sample Dbg.sample

/-- Beside C113_read_partial and C113_written_partial. -/
example : (∃ r, Message.dec (.obj [("jsonrpc", .str "2.0"), ("id", .int 3), ("error", .obj [("code", .int (-1)), ("message", .str "no")])]) =
      some (.response r) ∧ r.id.enc = .int 3 ∧ r.result = none) ∧
    IsResponse (.int 3) (Message.enc (.response ⟨.i32 3, none, some ⟨-1, "no", none⟩⟩)) ∧
    ¬ IsResponse (.int 3) (Message.enc (.response ⟨.i32 3, none, none⟩)) := by
  have h : IsResponse (.int 3) (.obj [("jsonrpc", .str "2.0"), ("id", .int 3), ("error", .obj [("code", .int (-1)), ("message", .str "no")])]) :=
    (C113_written_partial ⟨.i32 3, none, some ⟨-1, "no", none⟩⟩).2 (by simp)
  refine ⟨?_, h, fun h => ?_⟩
  · obtain ⟨r, h1, h2, _, h3⟩ := C113_read_partial h (.inr ⟨3, rfl, by decide, by decide⟩)
    exact ⟨r, h1, h2, (h3 _ ⟨_, rfl, [_, _], [], rfl, by simp [keys], by simp [keys]⟩).1⟩
  · have := (C113_written_partial ⟨.i32 3, none, none⟩).1 h
    simp at this

/-- Beside C113_violated: the answer to something that is no JSON. -/
example : Message.dec (.obj [("jsonrpc", .str "2.0"), ("id", .null),
    ("error", .obj [("code", .int (-32700)), ("message", .str "Parse error")])]) = none := by
  refine C113_violated (i := .null) ?_ (by simp [Matches])
  refine ⟨_, rfl, ⟨[], [_, _], rfl, by simp [keys], by simp [keys]⟩, ⟨[_], [_], rfl, by simp [keys], by simp [keys]⟩, by simp [keys],
    .inr ⟨_, ⟨[_, _], [], rfl, by simp [keys], by simp [keys]⟩, ?_, by simp [keys]⟩⟩
  have : Matches integer (.int (-32700)) := ⟨_, rfl, by decide, by decide⟩
  parts [errorObject, named, this]

/-- Beside C113_violated_null: the answer to shutdown. -/
example : ∃ r, Message.dec (.obj [("jsonrpc", .str "2.0"), ("id", .int 3), ("result", .null)]) = some (.response r) ∧
    r.id.enc = .int 3 ∧ ∀ i', ¬ IsResponse i' (Message.enc (.response r)) :=
  C113_violated_null ((C113_written_partial ⟨.i32 3, some Value.null, none⟩).2 (by simp)) (.inr ⟨3, rfl, by decide, by decide⟩)
    ⟨_, rfl, [_, _], [], rfl, by simp [keys], by simp [keys]⟩

/-- build/initialize, as the protocol has it. Sample, not in /repo. -/
def askInit : Json := .obj [("jsonrpc", .str "2.0"), ("id", .int 1), ("method", .str "build/initialize"),
  ("params", .obj [("displayName", .str "c"), ("version", .str "1"), ("bspVersion", .str "2"), ("rootUri", .str "file:///"),
    ("capabilities", .obj [("languageIds", .arr [])])])]

theorem askInit_is : IsRequest "build/initialize" askInit := by
  refine (isRequest_params (id := .i32 1)).2 ⟨rfl, initializeBuildParams, by simp [Protocol.requests], ?_⟩
  have h1 : Matches clientCapabilities (.obj [("languageIds", .arr [])]) := by
    have : Matches strings (.arr []) := by simp [strings, Matches]
    parts [clientCapabilities, named, this]
  have h2 : Matches .uri (.str "file:///") := matches_uri.2 rfl
  parts [initializeBuildParams, named, h1, h2]

/-- A request without params, or with null. Sample, not in /repo. -/
def askBare (i : Int) (m : String) (ps : Members) : Json :=
  .obj ([("jsonrpc", .str "2.0"), ("id", .int i), ("method", .str m)] ++ ps)

/-- A notification without params. Sample, not in /repo. -/
def tellBare (m : String) : Json := .obj [("jsonrpc", .str "2.0"), ("method", .str m)]

theorem tellBare_is {m : String} (h : (m, Shape.null) ∈ Protocol.notifications) : IsNotification m (tellBare m) :=
  isNotification_bare.2 ⟨rfl, h⟩

/-- What a client sends between the handshake and its leaving: a request for the targets, a request to compile, the start
of a task, a response. Sample, not in /repo. -/
def clientTalk : List Json :=
  [askBare 2 "workspace/buildTargets" [("params", .null)], askCompile, tellStart 12,
   .obj [("jsonrpc", .str "2.0"), ("id", .int 9), ("result", .bool true)]]

theorem askCompile_lost : Lost askCompile :=
  ⟨_, askCompile_is, .inr ⟨_, ⟨_, rfl, [_, _, _], [], rfl, by simp [keys], by simp [keys]⟩, .inl ⟨by simp, _, rfl, by simp [keys]⟩⟩⟩

theorem bare_lost {i : Int} (h : -2 ^ 31 ≤ i ∧ i < 2 ^ 31) : Lost (askBare i "build/shutdown" []) := by
  refine ⟨"build/shutdown", ?_, .inl ⟨_, rfl, by simp [keys]⟩⟩
  have := (isRequest_bare (id := .i32 (Int32.ofInt i)) (m := "build/shutdown") (m' := "build/shutdown")).2
    ⟨rfl, by simp [Protocol.requests]⟩
  rwa [show (RequestId.i32 (Int32.ofInt i)).enc = .int i by
    simp only [RequestId.enc, encI32, Int32.toInt_ofInt_of_le (show -2 ^ 31 ≤ i by omega) (by omega)]] at this

theorem clientTalk_asks {more : List Json} {is : List (String × Json)} (h : Asks more is) : Asks (clientTalk ++ more) (("workspace/buildTargets", .int 2) :: is) := by
  refine .heard ⟨.null, ?_, ⟨_, rfl, [_], [_, _], rfl, by simp [keys], by simp [keys]⟩,
    ⟨_, rfl, [_, _, _], [], rfl, by simp [keys], by simp [keys]⟩, by simp, by simp⟩ (.lost askCompile_lost (.told ⟨_, tellStart_is 12 (by decide) (by decide), ?_⟩
      (.answered ((C113_written_partial ⟨.i32 9, some (Value.ofJson (.bool true)), none⟩).2 (by simp))
        (.inr ⟨9, rfl, by decide, by decide⟩) h)))
  · exact (isRequest_params (id := .i32 2)).2 ⟨rfl, .null, by simp [Protocol.requests], rfl⟩
  · rintro p t ⟨_, h0, hp⟩ ⟨ps, rfl, ht⟩ _
    cases h0
    have := once_unique hp ⟨[_, _], [], rfl, by simp [keys], by simp [keys]⟩
    cases this
    cases once_unique ht ⟨[_], [], rfl, by simp [keys], by simp [keys]⟩
    decide

/-- The trees of the sample sessions. Sample, not in /repo. -/
def clientSession (leave : List Json) : List Json := [askInit, tellBare "build/initialized"] ++ clientTalk ++ leave

set_option maxRecDepth 5000 in
theorem clientSession_ok (ps : Members) (hp : ps = [] ∨ ps = [("params", .null)]) :
    ∀ j ∈ clientSession [askBare 3 "build/shutdown" ps, tellBare "build/exit"],
    Spec.nest j ≤ 127 ∧ Spec.Numbers j ∧ (utf8 (Text.print j)).length ≤ 2 ^ 63 - 1 := by
  intro x hx
  simp only [clientSession, clientTalk, List.cons_append, List.nil_append, List.mem_cons, List.not_mem_nil, or_false] at hx
  rcases hp with rfl | rfl <;> rcases hx with rfl | rfl | rfl | rfl | rfl | rfl | rfl | rfl
  all_goals
    refine ⟨by decide, by simp [askInit, tellBare, askBare, askCompile, aTarget, tellStart, Spec.Numbers, Spec.NumbersMembers, Spec.NumbersList], by decide⟩

theorem only {k : String} {a b : Members} {v w : Json} (h : Part k (.obj (a ++ (k, v) :: b)) w) (ha : k ∉ keys a) (hb : k ∉ keys b) :
    w = v := once_unique (once_inj.1 h) ⟨a, b, rfl, ha, hb⟩

theorem clientTalk_rest : ∀ j ∈ clientTalk, (Part "method" j (.str "build/shutdown") → Lacks "params" j) ∧
    ¬ Part "method" j (.str "build/exit") := by
  intro j hj
  simp only [clientTalk, List.mem_cons, List.not_mem_nil, or_false] at hj
  rcases hj with rfl | rfl | rfl | rfl
  · exact ⟨fun h => by simpa using only (a := [_, _]) (b := [_]) h (by simp [keys]) (by simp [keys]),
      fun h => by simpa using only (a := [_, _]) (b := [_]) h (by simp [keys]) (by simp [keys])⟩
  · exact ⟨fun h => by simpa using only (a := [_, _]) (b := [_]) h (by simp [keys]) (by simp [keys]),
      fun h => by simpa using only (a := [_, _]) (b := [_]) h (by simp [keys]) (by simp [keys])⟩
  · exact ⟨fun h => by simpa using only (a := [_]) (b := [_]) h (by simp [keys]) (by simp [keys]),
      fun h => by simpa using only (a := [_]) (b := [_]) h (by simp [keys]) (by simp [keys])⟩
  · refine ⟨fun h => ?_, fun h => ?_⟩ <;> exact absurd (once_not (once_inj.1 h)) (by simp [keys])

/-- A handler that returns an `InitializeBuildResult`. For examples about bsp-server/src/lib.rs:114-122. -/
def namedHandler (ip : InitializeBuild) : Option Value :=
  some (Value.ofJson (Api.InitializeBuildResult.new_simple ip.displayName "0.1" "2.0" Api.default_ServerCapabilities).enc)

/-- A process that has got these bytes and has come to rest. -/
theorem rested (k : Transport.Kind) (process : InitializeBuild → Option Value) (bs : Bytes) :
    ∃ as p, Session.Steps k process {} as p ∧ Quiet k process p ∧
    Session.Act.writeFails ∉ as ∧ Session.Act.timeout ∉ as ∧ p.io.arrived = bs ++ [] := by
  obtain ⟨as, q, h1, h2, h3⟩ := C72_settles k process { io := { arrived := bs, unread := bs } }
  obtain ⟨h4, _⟩ := steps_arrived h1 (fun h => (h3 _ h).1 rfl)
  refine ⟨_, q, steps_append (step_arrive k process bs) h1, h2, ?_, ?_, by simpa using h4⟩
  · intro h
    rcases List.mem_append.1 h with h | h
    · simp at h
    · exact (h3 _ h).2.2 rfl
  · intro h
    rcases List.mem_append.1 h with h | h
    · simp at h
    · exact (h3 _ h).2.1 rfl

/-- Beside C114_partial. -/
example (k : Transport.Kind) : ∃ as p, Session.Steps k namedHandler {} as p ∧ p.exit = some true ∧
    ∃ ms : List Message,
      Answers [("build/initialize", .int 1), ("workspace/buildTargets", .int 2), ("build/shutdown", .int 3)] (ms.map Message.enc) ∧ p.io.out = ms.flatMap Frame.write := by
  obtain ⟨as, p, h1, h2, h3, h4, h5⟩ := rested k namedHandler ((clientSession [askBare 3 "build/shutdown" [("params", .null)], tellBare "build/exit"]).flatMap
    fun j => Frame.frame (Text.print j))
  exact ⟨as, p, h1, C114_partial h1 h3 h4 h2 h5 (frames_printed (clientSession_ok _ (.inr rfl))) askInit_is
    ⟨_, rfl, [_], [_, _], rfl, by simp [keys], by simp [keys]⟩ (tellBare_is (by simp [Protocol.notifications]))
    (by simpa using clientTalk_asks .nil) clientTalk_rest
    ((isRequest_params (id := .i32 3)).2 ⟨rfl, .null, by simp [Protocol.requests], rfl⟩)
    ⟨_, rfl, [_], [_, _], rfl, by simp [keys], by simp [keys]⟩ ⟨_, rfl, [_, _, _], [], rfl, by simp [keys], by simp [keys]⟩
    (tellBare_is (by simp [Protocol.notifications])) (fun ip => ⟨_, rfl⟩)⟩

/-- Beside C114_violated: neither the request to compile nor that to shut down, without params, is answered. -/
example (k : Transport.Kind) : ∃ as p, Session.Steps k namedHandler {} as p ∧ p.exit = some true ∧
    ∃ ms : List Message, Answers [("build/initialize", .int 1), ("workspace/buildTargets", .int 2)] (ms.map Message.enc) ∧ p.io.out = ms.flatMap Frame.write ∧
      ∀ m ∈ ms, ¬ IsResponse (.int 7) m.enc ∧ ¬ IsResponse (.int 3) m.enc := by
  obtain ⟨as, p, h1, h2, h3, h4, h5⟩ := rested k namedHandler ((clientSession [askBare 3 "build/shutdown" [], tellBare "build/exit"]).flatMap
    fun j => Frame.frame (Text.print j))
  obtain ⟨h6, ms, h7, h8, h9⟩ := C114_violated (js := clientTalk ++ [askBare 3 "build/shutdown" []]) h1 h3 h2 h5
    (by simpa [clientSession] using frames_printed (clientSession_ok _ (.inl rfl))) askInit_is
    ⟨_, rfl, [_], [_, _], rfl, by simp [keys], by simp [keys]⟩ (tellBare_is (by simp [Protocol.notifications]))
    (clientTalk_asks (.lost (bare_lost (by decide)) .nil)) (by
      intro j hj
      rcases List.mem_append.1 hj with hj | hj
      · exact clientTalk_rest j hj
      · simp only [List.mem_singleton] at hj
        subst hj
        exact ⟨fun _ => ⟨_, rfl, by simp [keys]⟩,
          fun h => by simpa using only (a := [_, _]) (b := []) h (by simp [keys]) (by simp [keys])⟩)
    (tellBare_is (by simp [Protocol.notifications])) (fun ip => ⟨_, rfl⟩)
  refine ⟨as, p, h1, h6, ms, h7, h8, fun m hm => ⟨h9 askCompile (by simp [clientTalk]) _ askCompile_lost
    ⟨_, rfl, [_], [_, _], rfl, by simp [keys], by simp [keys]⟩ (by simp) m hm,
    h9 (askBare 3 "build/shutdown" []) (by simp) _ (bare_lost (by decide))
      ⟨_, rfl, [_], [_], rfl, by simp [keys], by simp [keys]⟩ (by simp) m hm⟩⟩

/-- Beside C114_violated_documented. -/
example (k : Transport.Kind) : ∃ as p, Session.Steps k documented {} as p ∧ p.exit = some true ∧
    ∃ (m : Message) (ms : List Message), p.io.out = (m :: ms).flatMap Frame.write ∧
      Answers [("workspace/buildTargets", .int 2)] (ms.map Message.enc) ∧
      IsResponse (.int 1) m.enc ∧ ¬ IsAnswer "build/initialize" (.int 1) m.enc := by
  obtain ⟨as, p, h1, h2, h3, h4, h5⟩ := rested k documented ((clientSession [askBare 3 "build/shutdown" [], tellBare "build/exit"]).flatMap
    fun j => Frame.frame (Text.print j))
  obtain ⟨h6, m, ms, h7, h8, h9, h10, _⟩ := C114_violated_documented (js := clientTalk ++ [askBare 3 "build/shutdown" []]) h1 h3 h2 h5
    (by simpa [clientSession] using frames_printed (clientSession_ok _ (.inl rfl))) askInit_is
    ⟨_, rfl, [_], [_, _], rfl, by simp [keys], by simp [keys]⟩ (tellBare_is (by simp [Protocol.notifications]))
    (clientTalk_asks (.lost (bare_lost (by decide)) .nil)) (by
      intro j hj
      rcases List.mem_append.1 hj with hj | hj
      · exact clientTalk_rest j hj
      · simp only [List.mem_singleton] at hj
        subst hj
        exact ⟨fun _ => ⟨_, rfl, by simp [keys]⟩,
          fun h => by simpa using only (a := [_, _]) (b := []) h (by simp [keys]) (by simp [keys])⟩)
    (tellBare_is (by simp [Protocol.notifications]))
  exact ⟨as, p, h1, h6, m, ms, h7, h8, h9, h10⟩

end
end Bsp
