/-
Properties of encoding: round trip of messages on JSON trees (C12, C13, C26, C27), accessors (C23,
C24), response constructors (C25), conversions (C62).  The text and framing layers are added in
Verif/Props/Wire.lean.
-/
import Verif.Convert
import Verif.Props.Message

set_option linter.unusedSectionVars false

namespace Bsp
open Json
open Spec (IdOf UsableRequest UsableResponse UsableNotification ReqMeaning NotMeaning keys)

/-! ### What comes back -/

/-- What is left of a request after the wire: its payload up to `norm`
(consequence of the payload types, see C29). -/
def Request.norm [Ext] : Request → Request
  | .initializeBuild id p => .initializeBuild id p.norm
  | .buildTargetRun id p => .buildTargetRun id p.norm
  | .buildTargetTest id p => .buildTargetTest id p.norm
  | r => r

/-- What is left of a notification after the wire (C30). -/
def Notification.norm [Ext] : Notification → Notification
  | .taskStart p => .taskStart p.norm
  | .taskFinish p => .taskFinish p.norm
  | .taskProgress p => .taskProgress p.norm
  | .buildTargetDidChange p => .buildTargetDidChange p.norm
  | .publishDiagnostics p => .publishDiagnostics p.norm
  | n => n

/-- What is left of a message after the wire. -/
def Message.norm [Ext] : Message → Message
  | .request r => .request r.norm
  | .response r => .response r.norm
  | .notification n => .notification n.norm

namespace Spec
variable [Ext]

/-- Requests that are written with a params member and whose custom method is not a built-in name. -/
def ReqOk : Request → Prop
  | .shutdown _ => False
  | .workspaceBuildTargets _ => False
  | .workspaceReload _ => False
  | .custom _ m v => m ∉ requestMethods ∧ v ≠ Value.null
  | _ => True

/-- Notifications whose custom method is not a built-in name. -/
def NotOk : Notification → Prop
  | .custom m _ => m ∉ notificationMethods
  | _ => True

/-- Wire-representable messages. -/
def WireOk : Message → Prop
  | .request r => ReqOk r
  | .response _ => True
  | .notification n => NotOk n

/-- Messages that come back unchanged: no present datum, result or error datum is null, and no
custom task data kind has a reserved name. -/
def PlainMessage : Message → Prop
  | .request (.initializeBuild _ p) => Payload.Plain .initializeBuild p
  | .request (.buildTargetRun _ p) => Payload.Plain .buildTargetRun p
  | .request (.buildTargetTest _ p) => Payload.Plain .buildTargetTest p
  | .request _ => True
  | .response r => r.result ≠ some Value.null ∧ ∀ e, r.error = some e → e.data ≠ some Value.null
  | .notification (.taskStart p) => Payload.Plain .taskStart p
  | .notification (.taskFinish p) => Payload.Plain .taskFinish p
  | .notification (.taskProgress p) => Payload.Plain .taskProgress p
  | .notification (.buildTargetDidChange p) => Payload.Plain .buildTargetDidChange p
  | .notification (.publishDiagnostics p) => Payload.Plain .publishDiagnostics p
  | .notification _ => True
end Spec

section
variable [Ext]

theorem Message.norm_plain (m : Message) (h : Spec.PlainMessage m) : m.norm = m := by
  cases m with
  | request r =>
    cases r <;> first
      | rfl
      | exact congrArg (fun x => Message.request (.initializeBuild _ x))
          (Payload.norm_plain .initializeBuild _ h)
      | exact congrArg (fun x => Message.request (.buildTargetRun _ x))
          (Payload.norm_plain .buildTargetRun _ h)
      | exact congrArg (fun x => Message.request (.buildTargetTest _ x))
          (Payload.norm_plain .buildTargetTest _ h)
  | response r =>
    obtain ⟨id, res, err⟩ := r
    simp only [Spec.PlainMessage] at h
    simp only [Message.norm, Response.norm, normData_plain h.1]
    cases err with
    | none => rfl
    | some e => simp only [Option.map_some, ResponseError.norm, normData_plain (h.2 e rfl)]
  | notification n =>
    cases n <;> first
      | rfl
      | exact congrArg (fun x => Message.notification (.taskStart x))
          (Payload.norm_plain .taskStart _ h)
      | exact congrArg (fun x => Message.notification (.taskFinish x))
          (Payload.norm_plain .taskFinish _ h)
      | exact congrArg (fun x => Message.notification (.taskProgress x))
          (Payload.norm_plain .taskProgress _ h)
      | exact congrArg (fun x => Message.notification (.buildTargetDidChange x))
          (Payload.norm_plain .buildTargetDidChange _ h)
      | exact congrArg (fun x => Message.notification (.publishDiagnostics x))
          (Payload.norm_plain .publishDiagnostics _ h)

theorem idOf_enc (id : RequestId) : IdOf id.enc id := (idOf_iff ..).mp (C18_roundtrip id)

theorem keys_cons (k : String) (v : Json) (ms : Members) : keys ((k, v) :: ms) = k :: keys ms := rfl
theorem keys_nil : keys [] = [] := rfl

/-- The shape of a written request. -/
theorem once_shape (i m p : Json) :
    Spec.Once "id" [("jsonrpc", .str "2.0"), ("id", i), ("method", m), ("params", p)] i ∧
    Spec.Once "method" [("jsonrpc", .str "2.0"), ("id", i), ("method", m), ("params", p)] m ∧
    Spec.Once "params" [("jsonrpc", .str "2.0"), ("id", i), ("method", m), ("params", p)] p :=
  ⟨⟨[_], _, rfl, by simp [keys], by simp [keys]⟩, ⟨[_, _], _, rfl, by simp [keys], by simp [keys]⟩,
   ⟨[_, _, _], [], rfl, by simp [keys], by simp [keys]⟩⟩

theorem usable_shape {id : RequestId} {m : String} {p : Json} {r : Request}
    (h : ReqMeaning id m (Value.ofJson p) r) :
    UsableRequest (.obj [("jsonrpc", .str "2.0"), ("id", id.enc), ("method", .str m), ("params", p)]) r :=
  ⟨_, _, _, _, _, rfl, (once_shape ..).1, idOf_enc id, (once_shape ..).2.1, (once_shape ..).2.2, h⟩

/-- The shape of a written notification. -/
theorem usable_not {m : String} {p : Json} {n : Notification} (h : NotMeaning m (Value.ofJson p) n) :
    Message.dec (.obj [("jsonrpc", .str "2.0"), ("method", .str m), ("params", p)]) =
      some (.notification n) := by
  have hno : Spec.NoUsableId [("jsonrpc", .str "2.0"), ("method", .str m), ("params", p)] := by
    rintro ⟨i, id, ⟨a, b, h, _⟩, _⟩
    have : "id" ∈ keys (a ++ ("id", i) :: b) := by simp [keys]
    rw [← h] at this
    simp [keys] at this
  rw [C14_notification]
  exact ⟨noId_not_req hno, noId_not_resp hno, _, _, rfl,
    ⟨[_], _, rfl, by simp [keys], by simp [keys]⟩,
    .inl ⟨_, ⟨[_, _], [], rfl, by simp [keys], by simp [keys]⟩, h⟩⟩
end

section
variable [LawfulExt]

theorem request_roundtrip (r : Request) (h : Spec.ReqOk r) :
    Message.dec (Message.enc (.request r)) = some (.request r.norm) := by
  rw [C14_request]
  cases r with
  | shutdown => exact h.elim
  | workspaceBuildTargets => exact h.elim
  | workspaceReload => exact h.elim
  | initializeBuild id p => exact usable_shape (.initialize p.dec_enc)
  | buildTargetDependencyModules id p => exact usable_shape (.dependencyModules p.dec_enc)
  | debugSessionStart id p => exact usable_shape (.debug p.dec_enc)
  | buildTargetSources id p => exact usable_shape (.sources p.dec_enc)
  | textDocumentInverseSources id p => exact usable_shape (.inverseSources p.dec_enc)
  | buildTargetDependencySources id p => exact usable_shape (.dependencySources p.dec_enc)
  | buildTargetResources id p => exact usable_shape (.resources p.dec_enc)
  | buildTargetRun id p => exact usable_shape (.run p.dec_enc)
  | buildTargetCompile id p => exact usable_shape (.compile p.dec_enc)
  | buildTargetTest id p => exact usable_shape (.test p.dec_enc)
  | buildTargetCleanCache id p => exact usable_shape (.cleanCache p.dec_enc)
  | custom id m v =>
    obtain ⟨h1, h2⟩ := h
    have hv : v.isNull = false := by
      cases hn : v.isNull with
      | false => rfl
      | true => exact absurd ((Value.isNull_iff v).mp hn) h2
    have hm := ReqMeaning.custom (i := id) (p := v) h1
    have e : Value.ofJson v.json = v := by ext; simp
    rw [← e] at hm
    have := usable_shape hm
    simp only [Message.enc, Message.members, Request.members, Request.method, hv]
    simpa [Request.norm, e] using this

theorem notification_roundtrip (n : Notification) (h : Spec.NotOk n) :
    Message.dec (Message.enc (.notification n)) = some (.notification n.norm) := by
  have hno : ∀ m, Spec.NoUsableId [("jsonrpc", .str "2.0"), ("method", .str m)] := by
    rintro m ⟨i, id, ⟨a, b, h, _⟩, _⟩
    have : "id" ∈ keys (a ++ ("id", i) :: b) := by simp [keys]
    rw [← h] at this
    simp [keys] at this
  cases n with
  | exit =>
    exact (C28_exit_initialized _ (hno _) (.inl (by simp [keys]))).1 ⟨[_], [], rfl, by simp [keys], by simp [keys]⟩
  | initialized =>
    exact (C28_exit_initialized _ (hno _) (.inl (by simp [keys]))).2 ⟨[_], [], rfl, by simp [keys], by simp [keys]⟩
  | showMessage p => exact usable_not (.showMessage p.dec_enc)
  | logMessage p => exact usable_not (.logMessage p.dec_enc)
  | publishDiagnostics p => exact usable_not (.publishDiagnostics p.dec_enc)
  | taskStart p => exact usable_not (.taskStart p.dec_enc)
  | taskFinish p => exact usable_not (.taskFinish p.dec_enc)
  | taskProgress p => exact usable_not (.taskProgress p.dec_enc)
  | buildTargetDidChange p => exact usable_not (.didChange p.dec_enc)
  | custom m v =>
    have hm := NotMeaning.custom (p := v) h
    have e : Value.ofJson v.json = v := by ext; simp
    rw [← e] at hm
    have := usable_not hm
    simpa [Notification.norm, e, Message.enc, Message.members, Notification.members,
      Notification.method] using this

end

section
variable [Ext]

/-! ### C26 responses -/

theorem anyValue_json (v : Value) : Spec.AnyValue v.json v := by
  simp only [Spec.AnyValue]; ext; simp

theorem error_of_enc (e : ResponseError) : Spec.ErrOf e.enc e.norm := by
  obtain ⟨c, m, d⟩ := e
  left
  refine ⟨_, c.toInt, rfl, ⟨[], _, rfl, by simp [keys], ?_⟩, idOf_enc (.i32 c),
    ⟨[("code", encI32 c)], _, rfl, by simp [keys], ?_⟩, ?_⟩
  · cases d <;> simp [keys, fld, skipNone]
  · cases d <;> simp [keys, skipNone]
  · cases d with
    | none => exact .inl ⟨by simp [keys, fld, skipNone], rfl⟩
    | some v =>
      by_cases hv : v = Value.null
      · subst hv
        refine .inr (.inl ⟨⟨[("code", encI32 c), ("message", .str m)], [], rfl, by simp [keys],
          by simp [keys]⟩, rfl⟩)
      · refine .inr (.inr ⟨v.json, v, ⟨[("code", encI32 c), ("message", .str m)], [], rfl,
          by simp [keys], by simp [keys]⟩, ?_, anyValue_json v, ?_⟩)
        · intro h; exact hv (by ext; simpa using h)
        · simp only [ResponseError.norm]
          exact normData_plain (by simpa using hv)

theorem ResponseError.enc_ne_null (e : ResponseError) : e.enc ≠ .null := by simp [ResponseError.enc]

theorem response_roundtrip (r : Response) :
    Message.dec (Message.enc (.response r)) = some (.response r.norm) := by
  rw [C14_response]
  obtain ⟨id, res, err⟩ := r
  refine ⟨?_, .inl ⟨_, id.enc, rfl, ⟨[_], _, rfl, by simp [keys], ?_⟩, idOf_enc id, ?_, ?_⟩⟩
  · rintro ⟨q, ms, _, m, _, _, h0, _, _, ⟨a, b, h, _⟩, _⟩
    cases h0
    have : "method" ∈ keys (a ++ ("method", .str m) :: b) := by simp [keys]
    rw [← h] at this
    revert this
    cases res <;> cases err <;> simp [keys, Message.members, Response.members, fld, skipNone]
  · cases res <;> cases err <;> simp [keys, skipNone]
  · have key : ∀ v : Value, Spec.Once "result"
        (("jsonrpc", Json.str "2.0") :: Message.members (.response ⟨id, some v, err⟩)) v.json := by
      intro v
      refine ⟨[_, _], skipNone "error" ResponseError.enc err, rfl, by simp [keys], ?_⟩
      cases err <;> simp [keys, skipNone]
    cases res with
    | none =>
      refine .inl ⟨?_, rfl⟩
      cases err <;> simp [keys, Message.members, Response.members, fld, skipNone]
    | some v =>
      by_cases hv : v = Value.null
      · subst hv; exact .inr (.inl ⟨key _, rfl⟩)
      · refine .inr (.inr ⟨v.json, v, key v, ?_, anyValue_json v, ?_⟩)
        · intro h; exact hv (by ext; simpa using h)
        · simp only [Response.norm]
          exact normData_plain (by simpa using hv)
  · cases err with
    | none =>
      refine .inl ⟨?_, rfl⟩
      cases res <;> simp [keys, Message.members, Response.members, fld, skipNone]
    | some e =>
      refine .inr (.inr ⟨e.enc, e.norm, ?_, e.enc_ne_null, error_of_enc e, rfl⟩)
      cases res with
      | none => exact ⟨[_, _], [], rfl, by simp [keys], by simp [keys]⟩
      | some v => exact ⟨[_, _, _], [], rfl, by simp [keys], by simp [keys]⟩

/-- C26: a response comes back with the same id, result and error; only a null result and null error
data become absent. -/
theorem C26_response (r : Response) :
    ∃ r', Message.dec (Message.enc (.response r)) = some (.response r') ∧ r'.id = r.id ∧
      r'.result = (if r.result = some Value.null then none else r.result) ∧
      r'.error = r.error.map (fun e =>
        { e with data := if e.data = some Value.null then none else e.data }) := by
  refine ⟨_, response_roundtrip r, rfl, ?_, ?_⟩
  · simp only [Response.norm]
    split
    · rename_i h; rw [h]; rfl
    · rename_i h; exact normData_plain h
  · simp only [Response.norm]
    congr 1
    funext e
    simp only [ResponseError.norm]
    congr 1
    split
    · rename_i h; rw [h]; rfl
    · rename_i h; exact normData_plain h

/-- C26: the acknowledgement of a shutdown request arrives without a result. -/
theorem C26_shutdown_reply (id : RequestId) :
    Message.dec (Message.enc (.response (Response.ok id Value.null))) =
      some (.response ⟨id, none, none⟩) := response_roundtrip _

/-- Beside C26. -/
example : Message.dec (Message.enc (.response ⟨.i32 3, none, some ⟨-32600, "bad", some Value.null⟩⟩)) =
    some (.response ⟨.i32 3, none, some ⟨-32600, "bad", none⟩⟩) := by
  obtain ⟨r', h, h1, h2, h3⟩ := C26_response ⟨.i32 3, none, some ⟨-32600, "bad", some Value.null⟩⟩
  obtain ⟨i, re, er⟩ := r'
  rw [h]
  simp at h1 h2 h3
  simp [h1, h2, h3]
end

section
variable [LawfulExt]

/-! ### C12 (on trees), C27 -/

/-- C12 on JSON trees: a wire-representable message decodes from its encoding to itself, up to `norm`. -/
theorem C12_tree (m : Message) (h : Spec.WireOk m) : Message.dec m.enc = some m.norm := by
  cases m with
  | request r => exact request_roundtrip r h
  | response r => exact response_roundtrip r
  | notification n => exact notification_roundtrip n h

/-- C12 on JSON trees: exactly itself if nothing in it is a present null or a reserved custom kind. -/
theorem C12_tree_plain (m : Message) (h : Spec.WireOk m) (hp : Spec.PlainMessage m) :
    Message.dec m.enc = some m := by
  rw [C12_tree m h, m.norm_plain hp]

/-- C27: a notification comes back as that notification. -/
theorem C27_notification (n : Notification)
    (h : ∀ m v, n = .custom m v → m ∉ Spec.notificationMethods) :
    Message.dec (Message.enc (.notification n)) = some (.notification n.norm) ∧
    (Spec.PlainMessage (.notification n) →
      Message.dec (Message.enc (.notification n)) = some (.notification n)) := by
  have hw : Spec.NotOk n := by
    cases n <;> first | trivial | exact h _ _ rfl
  exact ⟨notification_roundtrip n hw, fun hp => C12_tree_plain (.notification n) hw hp⟩

/-- C27: no notification whatever, not even a custom one with a reserved or a request method, is
mistaken for a request or response. -/
theorem C27_never_confused (n : Notification) (m : Message)
    (h : Message.dec (Message.enc (.notification n)) = some m) : ∃ n', m = .notification n' := by
  have hno : Spec.NoUsableId (("jsonrpc", .str "2.0") :: n.members) := by
    rintro ⟨i, id, ⟨a, b, h, _⟩, _⟩
    have : "id" ∈ keys (a ++ ("id", i) :: b) := by simp [keys]
    rw [← h] at this
    revert this
    cases n <;> simp [keys, Notification.members]
  cases m with
  | request r => exact absurd ⟨r, (C14_request ..).mp h⟩ (noId_not_req hno)
  | response r => exact absurd ⟨r, ((C14_response ..).mp h).2⟩ (noId_not_resp hno)
  | notification n' => exact ⟨n', rfl⟩

/-! ### C13 -/

/-- C13 (violated by the code): requests without params are read back as an empty response. -/
theorem C13_violated (id : RequestId) (m : String) :
    ∀ r ∈ [Request.shutdown id, .workspaceBuildTargets id, .workspaceReload id, .custom id m Value.null],
      Message.dec (Message.enc (.request r)) = some (.response ⟨id, none, none⟩) := by
  have key : ∀ s : String, Message.dec (.obj [("jsonrpc", .str "2.0"), ("id", id.enc), ("method", .str s)]) =
      some (.response ⟨id, none, none⟩) := fun s =>
    C20_violated _ id.enc id s ⟨[_], _, rfl, by simp [keys], by simp [keys]⟩ (idOf_enc id)
      ⟨[_, _], [], rfl, by simp [keys], by simp [keys]⟩ (.inl (by simp [keys])) (by simp [keys])
      (by simp [keys])
  intro r hr
  simp only [List.mem_cons, List.not_mem_nil, or_false] at hr
  rcases hr with rfl | rfl | rfl | rfl
  · exact key _
  · exact key _
  · exact key _
  · exact key _

/-- C13, the part that holds: every request written with params comes back as a request with the same
id and method.  Missing: the requests of `C13_violated` (and custom requests with a built-in method
name). -/
theorem C13_partial (r : Request) (h : Spec.ReqOk r) :
    ∃ r', Message.dec (Message.enc (.request r)) = some (.request r') ∧ r'.id = r.id ∧
      r'.method = r.method := by
  refine ⟨r.norm, request_roundtrip r h, ?_, ?_⟩ <;> cases r <;> rfl

theorem reqMeaning_same {id : RequestId} {m : String} {v : Value} {q : Request} (h : ReqMeaning id m v q) :
    q.id = id ∧ q.method = m := by
  cases h <;> exact ⟨rfl, rfl⟩

/-- C13, exactly: a request comes back as a request with the same id and method if and only if it is not one of those
without params and, if it is a custom request, its method accepts its params (which every method does that is not
built in); otherwise it comes back as an empty response with the same id. -/
theorem C13_exact (r : Request) :
    ((∃ r', Message.dec (Message.enc (.request r)) = some (.request r') ∧ r'.id = r.id ∧ r'.method = r.method) ↔
      ¬ Spec.Bare r ∧ ∀ id m v, r = .custom id m v → ∃ q, ReqMeaning id m v q) ∧
    ((∃ r', Message.dec (Message.enc (.request r)) = some (.request r') ∧ r'.id = r.id ∧ r'.method = r.method) ∨
      Message.dec (Message.enc (.request r)) = some (.response ⟨r.id, none, none⟩)) := by
  by_cases hb : Spec.Bare r
  · have hd : Message.dec (Message.enc (.request r)) = some (.response ⟨r.id, none, none⟩) := by
      obtain ⟨id, rfl | rfl | rfl | ⟨m, rfl⟩⟩ := hb
      · exact C13_violated id "" _ (by simp)
      · exact C13_violated id "" _ (by simp)
      · exact C13_violated id "" _ (by simp)
      · exact C13_violated id m _ (by simp)
    refine ⟨⟨?_, fun h => absurd hb h.1⟩, .inr hd⟩
    rintro ⟨r', h, _⟩
    rw [hd] at h
    cases h
  · by_cases hc : ∃ id m v, r = .custom id m v
    · obtain ⟨id, m, v, rfl⟩ := hc
      have hv : v ≠ Value.null := fun e => hb ⟨id, .inr (.inr (.inr ⟨m, by rw [e]⟩))⟩
      have hv' : v.isNull = false := by
        cases hh : v.isNull with
        | false => rfl
        | true => exact absurd ((Value.isNull_iff v).1 hh) hv
      have he : Message.enc (.request (.custom id m v)) =
          .obj [("jsonrpc", .str "2.0"), ("id", id.enc), ("method", .str m), ("params", v.json)] := by
        simp [Message.enc, Message.members, Request.members, hv', Request.method]
      have hj : Value.ofJson v.json = v := by ext; simp
      by_cases hq : ∃ q, ReqMeaning id m v q
      · obtain ⟨q, hq⟩ := hq
        have hd : ∃ r', Message.dec (Message.enc (.request (.custom id m v))) = some (.request r') ∧
            r'.id = (Request.custom id m v).id ∧ r'.method = (Request.custom id m v).method :=
          ⟨q, by rw [he, C14_request]; exact usable_shape (by rw [hj]; exact hq), reqMeaning_same hq⟩
        refine ⟨⟨fun _ => ⟨hb, ?_⟩, fun _ => hd⟩, .inl hd⟩
        intro id' m' v' h
        cases h
        exact ⟨q, hq⟩
      · have hd : Message.dec (Message.enc (.request (.custom id m v))) = some (.response ⟨id, none, none⟩) := by
          rw [he]
          exact C20_violated _ _ id m (once_shape ..).1 (idOf_enc id) (once_shape ..).2.1
            (.inr ⟨_, (once_shape ..).2.2, by rw [hj]; exact hq⟩) (by simp [keys]) (by simp [keys])
        refine ⟨⟨?_, fun h => absurd (h.2 _ _ _ rfl) hq⟩, .inr hd⟩
        rintro ⟨r', h, _⟩
        rw [hd] at h
        cases h
    · have ho : Spec.ReqOk r := by
        cases r <;> first
          | trivial
          | exact absurd ⟨_, _, _, rfl⟩ hc
          | exact absurd ⟨_, .inl rfl⟩ hb
          | exact absurd ⟨_, .inr (.inl rfl)⟩ hb
          | exact absurd ⟨_, .inr (.inr (.inl rfl))⟩ hb
      have hd := C13_partial r ho
      exact ⟨⟨fun _ => ⟨hb, fun id m v h => absurd ⟨id, m, v, h⟩ hc⟩, fun _ => hd⟩, .inl hd⟩

end

section
attribute [local instance] Ext.sample
/-- Beside C12, C13, C27. -/
example : Message.dec (Message.enc (.request (.custom (.str "x") "vendor/y" (Value.ofJson (.int 1))))) =
    some (.request (.custom (.str "x") "vendor/y" (Value.ofJson (.int 1)))) :=
  C12_tree_plain _ ⟨by decide, by
    intro h
    have := congrArg Value.json h
    simp at this⟩ trivial
example : Message.dec (Message.enc (.notification (.showMessage ⟨.info, "hi", none, some "o"⟩))) =
    some (.notification (.showMessage ⟨.info, "hi", none, some "o"⟩)) :=
  (C27_notification _ (by simp)).2 trivial
/-- Beside C13_exact: a custom request with the name of a built-in one whose params it does not accept. -/
example : ¬ ∃ q, ReqMeaning (.i32 1) "buildTarget/compile" (Value.ofJson (.int 1)) q := by
  rintro ⟨q, h⟩
  rw [← ofMethod_iff, show Request.ofMethod (.i32 1) "buildTarget/compile" (Value.ofJson (.int 1)) = none from rfl] at h
  cases h
example : Message.dec (Message.enc (.request (.shutdown (.i32 9)))) =
    some (.response ⟨.i32 9, none, none⟩) := C13_violated (.i32 9) "m" _ (by simp)
end

section
variable [Ext]

/-! ### C23, C24 accessors -/

/-- C23: `id()` and `method()` are the members of the encoding, each there exactly once. -/
theorem C23_accessors (r : Request) :
    ∃ ms, Message.enc (.request r) = .obj ms ∧ Spec.Once "id" ms r.id.enc ∧
      Spec.Once "method" ms (.str r.method) := by
  have key : ∀ (id : RequestId) (m : String) (l : Members), keys l = [] ∨ keys l = ["params"] →
      Spec.Once "id" (("jsonrpc", .str "2.0") :: ("id", id.enc) :: ("method", .str m) :: l) id.enc ∧
      Spec.Once "method" (("jsonrpc", .str "2.0") :: ("id", id.enc) :: ("method", .str m) :: l) (.str m) := by
    intro id m l hl
    refine ⟨⟨[_], _, rfl, by simp [keys], ?_⟩, ⟨[_, _], _, rfl, by simp [keys], ?_⟩⟩
    · rw [keys_cons]; rcases hl with h | h <;> rw [h] <;> decide
    · rcases hl with h | h <;> rw [h] <;> decide
  refine ⟨_, rfl, ?_⟩
  cases r with
  | custom id m v =>
    simp only [Message.members, Request.members, Request.id, Request.method]
    cases v.isNull
    · exact key id m [("params", v.json)] (.inr rfl)
    · exact key id m [] (.inl rfl)
  | shutdown id => exact key id _ [] (.inl rfl)
  | workspaceBuildTargets id => exact key id _ [] (.inl rfl)
  | workspaceReload id => exact key id _ [] (.inl rfl)
  | initializeBuild id p => exact key id _ [("params", p.enc)] (.inr rfl)
  | buildTargetDependencyModules id p => exact key id _ [("params", p.enc)] (.inr rfl)
  | debugSessionStart id p => exact key id _ [("params", p.enc)] (.inr rfl)
  | buildTargetSources id p => exact key id _ [("params", p.enc)] (.inr rfl)
  | textDocumentInverseSources id p => exact key id _ [("params", p.enc)] (.inr rfl)
  | buildTargetDependencySources id p => exact key id _ [("params", p.enc)] (.inr rfl)
  | buildTargetResources id p => exact key id _ [("params", p.enc)] (.inr rfl)
  | buildTargetRun id p => exact key id _ [("params", p.enc)] (.inr rfl)
  | buildTargetCompile id p => exact key id _ [("params", p.enc)] (.inr rfl)
  | buildTargetTest id p => exact key id _ [("params", p.enc)] (.inr rfl)
  | buildTargetCleanCache id p => exact key id _ [("params", p.enc)] (.inr rfl)

/-- Beside C23. -/
example : (Request.shutdown (.i32 3)).id = .i32 3 ∧
    (Request.custom (.str "a") "m" Value.null).method = "m" := ⟨rfl, rfl⟩

/-- The params member of an encoding, null when absent (specification for C24). -/
def Spec.ParamsAre (r : Request) (v : Value) : Prop :=
  ∃ ms, Message.enc (.request r) = .obj ms ∧
    ((∃ p, Spec.Once "params" ms p ∧ v = Value.ofJson p) ∨ ("params" ∉ keys ms ∧ v = Value.null))

/-- C24 (violated by the code): `params()` of a custom request is the method name. -/
theorem C24_violated (id : RequestId) (m : String) (v : Value) (h : v ≠ Value.ofJson (.str m)) :
    (Request.custom id m v).params = Value.ofJson (.str m) ∧
    ¬ Spec.ParamsAre (.custom id m v) (Request.custom id m v).params := by
  refine ⟨rfl, ?_⟩
  rintro ⟨ms, h0, h1⟩
  cases h0
  simp only [Request.params] at h1
  have hne : Value.ofJson (.str m) ≠ Value.null := by
    intro e
    have := congrArg Value.json e
    simp at this
  by_cases hv : v.isNull = true
  · simp only [Message.members, Request.members, hv] at h1
    rcases h1 with ⟨p, ⟨a, b, hp, _⟩, _⟩ | ⟨_, e⟩
    · have : "params" ∈ keys (a ++ ("params", p) :: b) := by simp [keys]
      rw [← hp] at this
      simp [keys] at this
    · exact hne e
  · have hv : v.isNull = false := by simpa using hv
    simp only [Message.members, Request.members, hv] at h1
    rcases h1 with ⟨p, hp, e⟩ | ⟨_, e⟩
    · have h2 := (once_shape id.enc (.str (Request.custom id m v).method) v.json).2.2
      rw [once_iff] at hp h2
      have : p = v.json := by have := hp.symm.trans h2; simpa using this
      subst this
      apply h
      rw [e]; ext; simp
    · exact hne e

/-- C24, the part that holds: for all built-in requests `params()` is the params member.  Missing:
custom requests. -/
theorem C24_partial (r : Request) (h : ∀ id m v, r ≠ .custom id m v) : Spec.ParamsAre r r.params := by
  have key : ∀ (id : RequestId) (m : String) (p : Json),
      (∃ q, Spec.Once "params" (("jsonrpc", Json.str "2.0") :: [("id", id.enc), ("method", Json.str m), ("params", p)]) q ∧
        Value.ofJson p = Value.ofJson q) := fun id m p => ⟨p, (once_shape ..).2.2, rfl⟩
  refine ⟨_, rfl, ?_⟩
  cases r with
  | custom id m v => exact absurd rfl (h id m v)
  | shutdown id => exact .inr ⟨by simp [keys, Message.members, Request.members], rfl⟩
  | workspaceBuildTargets id => exact .inr ⟨by simp [keys, Message.members, Request.members], rfl⟩
  | workspaceReload id => exact .inr ⟨by simp [keys, Message.members, Request.members], rfl⟩
  | _ => exact .inl (key _ _ _)

/-- C24, exactly: `params()` is the params member unless the request is custom with params other than its own method
name. -/
theorem C24_exact (r : Request) :
    Spec.ParamsAre r r.params ↔ ∀ id m v, r = .custom id m v → v = Value.ofJson (.str m) := by
  constructor
  · rintro h id m v rfl
    by_cases hv : v = Value.ofJson (.str m)
    · exact hv
    · exact absurd h (C24_violated id m v hv).2
  · intro h
    by_cases hc : ∃ id m v, r = .custom id m v
    · obtain ⟨id, m, v, rfl⟩ := hc
      have := h id m v rfl
      subst this
      refine ⟨_, rfl, .inl ⟨.str m, ?_, rfl⟩⟩
      have : (Value.ofJson (.str m)).isNull = false := by rfl
      simp only [Message.members, Request.members, this]
      exact (once_shape ..).2.2
    · exact C24_partial r fun id m v e => hc ⟨id, m, v, e⟩

/-- Beside C24. -/
example : (Request.custom (.i32 1) "vendor/x" Value.null).params ≠ Value.null := by
  rw [(C24_violated (.i32 1) "vendor/x" Value.null (by
    intro e; have := congrArg Value.json e; simp at this)).1]
  intro e
  have := congrArg Value.json e
  simp at this

/-! ### C25 constructors -/

/-- Codes as JSON-RPC 2.0 and LSP define them (specification table). -/
def Spec.errorConstructors : List ((RequestId → String → Response) × Int32) :=
  [(Response.parseError, -32700), (Response.invalidRequest, -32600), (Response.methodNotFound, -32601),
   (Response.invalidParams, -32602), (Response.internalError, -32603),
   (Response.serverErrorStart, -32099), (Response.serverErrorEnd, -32000),
   (Response.serverNotInitialized, -32002), (Response.requestCanceled, -32800),
   (Response.contentModified, -32801), (Response.serverCanceled, -32802)]

/-- C25: each error constructor carries the id, the code of its name and the message, and no result;
`ok` carries the id and the result, and no error. -/
theorem C25_constructors (id : RequestId) (msg : String) :
    (∀ c ∈ Spec.errorConstructors, (c.1 id msg).id = id ∧ (c.1 id msg).result = none ∧
      (c.1 id msg).error = some ⟨c.2, msg, none⟩) ∧
    (∀ v, (Response.ok id v).id = id ∧ (Response.ok id v).result = some v ∧
      (Response.ok id v).error = none) := by
  refine ⟨?_, fun v => ⟨rfl, rfl, rfl⟩⟩
  intro c hc
  simp only [Spec.errorConstructors, List.mem_cons, List.not_mem_nil, or_false] at hc
  rcases hc with rfl | rfl | rfl | rfl | rfl | rfl | rfl | rfl | rfl | rfl | rfl <;>
    exact ⟨rfl, rfl, rfl⟩

/-- C25: the codes are pairwise distinct, also as the enumeration `ErrorCode`. -/
theorem C25_distinct : (Spec.errorConstructors.map (·.2)).Nodup ∧
    (∀ a b : ErrorCode, a.code = b.code → a = b) := by
  refine ⟨by decide, ?_⟩
  intro a b
  cases a <;> cases b <;> decide

/-- Beside C25. -/
example : Response.serverNotInitialized (.str "q") "no" = ⟨.str "q", none, some ⟨-32002, "no", none⟩⟩ := rfl

/-! ### C62 conversions -/

namespace Spec
/-- The method of each convertible request payload (specification table). -/
def reqPayloadMethod : ReqPayload → String
  | .cleanCache => "buildTarget/cleanCache"
  | .compile => "buildTarget/compile"
  | .dependencyModules => "buildTarget/dependencyModules"
  | .dependencySources => "buildTarget/dependencySources"
  | .resources => "buildTarget/resources"
  | .run => "buildTarget/run"
  | .sources => "buildTarget/sources"
  | .test => "buildTarget/test"
  | .debug => "debugSession/start"
  | .initialize => "build/initialize"
  | .inverseSources => "textDocument/inverseSources"
/-- The method of each convertible notification payload. -/
def notPayloadMethod : NotPayload → String
  | .showMessage => "build/showMessage"
  | .logMessage => "build/logMessage"
  | .publishDiagnostics => "build/publishDiagnostics"
  | .taskStart => "build/taskStart"
  | .taskFinish => "build/taskFinish"
  | .taskProgress => "build/taskProgressing"
  | .didChange => "buildTarget/didChange"
end Spec

/-- C62: a converted request payload is written with the given id, its method and itself as params. -/
theorem C62_request (k : ReqPayload) (id : RequestId) (x : k.payload.Carrier) :
    (Message.ofRequestPayload k id x).enc =
      .obj [("jsonrpc", .str "2.0"), ("id", id.enc), ("method", .str (Spec.reqPayloadMethod k)),
        ("params", k.payload.enc x)] := by
  cases k <;> rfl

/-- C62: a converted notification payload. -/
theorem C62_notification (k : NotPayload) (x : k.payload.Carrier) :
    (Message.ofNotificationPayload k x).enc =
      .obj [("jsonrpc", .str "2.0"), ("method", .str (Spec.notPayloadMethod k)),
        ("params", k.payload.enc x)] := by
  cases k <;> rfl

/-- C62: a converted result payload; the client decodes the result member to the payload. -/
theorem C62_result (k : ResPayload) (id : RequestId) (x : k.payload.Carrier) :
    (Message.ofResult k id x).enc =
      .obj [("jsonrpc", .str "2.0"), ("id", id.enc), ("result", canon (k.payload.enc x))] := by
  cases k <;> rfl

/-- C62: strings, JSON values and custom requests and notifications. -/
theorem C62_plain (id : RequestId) (m s : String) (v : Value) :
    (Message.ofStringResult id s).enc =
      .obj [("jsonrpc", .str "2.0"), ("id", id.enc), ("result", .str s)] ∧
    (Message.ofValueResult id v).enc =
      .obj [("jsonrpc", .str "2.0"), ("id", id.enc), ("result", v.json)] ∧
    (v ≠ Value.null → (Message.ofCustomRequest id m v).enc =
      .obj [("jsonrpc", .str "2.0"), ("id", id.enc), ("method", .str m), ("params", v.json)]) ∧
    (Message.ofCustomNotification m v).enc =
      .obj [("jsonrpc", .str "2.0"), ("method", .str m), ("params", v.json)] := by
  refine ⟨rfl, rfl, ?_, rfl⟩
  intro h
  have hv : v.isNull = false := by
    cases hn : v.isNull with
    | false => rfl
    | true => exact absurd ((Value.isNull_iff v).mp hn) h
  simp [Message.ofCustomRequest, Message.enc, Message.members, Request.members, hv, Request.method]

end

section
attribute [local instance] Ext.sample
/-- Beside C62: the round trip of a converted result, from the server's value to the client's. -/
example (id : RequestId) : ∃ r, Message.dec (Message.ofResult .run id ⟨some "o", 1⟩).enc = some (.response r) ∧
    r.result.map (fun v => BuildTargetRunResult.dec v.json) = some (some ⟨some "o", 1⟩) := by
  refine ⟨_, response_roundtrip _, ?_⟩
  have h : Value.ofJson (BuildTargetRunResult.enc ⟨some "o", 1⟩) ≠ Value.null := by
    intro e
    have := congrArg Value.json e
    simp [BuildTargetRunResult.enc, canon] at this
  simp only [Response.norm, Response.ok, Payload.enc]
  rw [normData_plain (by simpa using h)]
  simp only [Option.map_some]
  exact congrArg some (BuildTargetRunResult.dec_enc _)
end

end Bsp
