/-
C98-C100: exactly which JSON trees are accepted, and what is left of them when they are sent on, for every payload
type and for whole messages, in terms of a table of schemas (Verif/Schema.lean, Verif/SchemaTable.lean).
-/
import Verif.SchemaTable
import Verif.Props.Relay

set_option linter.unusedSectionVars false

namespace Bsp
open Json Spec

/-! ### Payloads -/

/-- C98: a payload type accepts exactly the trees that conform to its schema. -/
theorem C98_accepts [Ext] (p : Payload) (j : Json) : (p.dec j).isSome = true ↔ Conforms p.ty j :=
  p.follows.1 j

/-- C99: a payload that was decoded from a tree is encoded as what the schema leaves of that tree. -/
theorem C99_reencode [Ext] (p : Payload) (j : Json) (x : p.Carrier) (h : p.dec j = some x) :
    p.enc x = clean p.ty j :=
  p.follows.2 j x h

/-- C99: so what was encoded, decoded and encoded again is the first encoding, cleaned. -/
theorem C99_stable [LawfulExt] (p : Payload) (x : p.Carrier) (h : p.Plain x) :
    clean p.ty (canon (p.enc x)) = p.enc x := by
  have := p.dec_enc x
  rw [p.norm_plain x h] at this
  exact (C99_reencode p _ _ this).symm

/-! ### Messages -/

namespace Spec

/-- The methods of requests with parameters, and the schema of these.
Specification of bsp-server/src/request.rs:441-463. -/
def requestTable : List (String × Ty) :=
  [("build/initialize", InitializeBuild.ty),
   ("buildTarget/dependencyModules", BuildTargetDependencyModules.ty),
   ("debugSession/start", DebugSessionStart.ty),
   ("buildTarget/sources", BuildTargetSources.ty),
   ("textDocument/inverseSources", TextDocumentInverseSources.ty),
   ("buildTarget/dependencySources", BuildTargetDependencySources.ty),
   ("buildTarget/resources", BuildTargetResources.ty),
   ("buildTarget/run", BuildTargetRun.ty),
   ("buildTarget/compile", BuildTargetCompile.ty),
   ("buildTarget/test", BuildTargetTest.ty),
   ("buildTarget/cleanCache", BuildTargetCleanCache.ty)]

/-- The requests whose parameters are not looked at and not written.
Specification of bsp-server/src/request.rs:214-285, 445-447. -/
def bareRequests : List String := ["build/shutdown", "workspace/buildTargets", "workspace/reload"]

/-- The methods of notifications with parameters, and the schema of these.
Specification of bsp-server/src/notification.rs:250-261. -/
def notificationTable : List (String × Ty) :=
  [("build/showMessage", ShowMessage.ty),
   ("build/logMessage", LogMessage.ty),
   ("build/publishDiagnostics", PublishDiagnostics.ty),
   ("build/taskStart", TaskStart.ty),
   ("build/taskFinish", TaskFinish.ty),
   ("build/taskProgressing", TaskProgress.ty),
   ("buildTarget/didChange", BuildTargetDidChange.ty)]

/-- The notifications whose parameters are not looked at and not written.
Specification of bsp-server/src/notification.rs:99-122, 251-252. -/
def bareNotifications : List String := ["build/exit", "build/initialized"]

/-- The schema of the parameters of a method: that of the table, otherwise anything goes.
Specification of bsp-server/src/request.rs:441-463, notification.rs:250-261. -/
def paramsTy (table : List (String × Ty)) (m : String) : Ty := (table.lookup m).getD .any

/-- The schema of a response. Specification of bsp-server/src/response.rs:4-22. -/
def responseTy : Ty := .struct <|
  .cons "id" .required none .numOrStr <|
  .cons "result" .optional (some .null) (.opt .any) <|
  .cons "error" .optional (some .null) (.opt <| .struct <|
    .cons "code" .required none (.int (-2 ^ 31) (2 ^ 31)) <|
    .cons "message" .required none .str <|
    .cons "data" .optional (some .null) (.opt .any) .nil)
  .nil

/-- `j` is a request, and passed on it becomes `o`.
Specification of bsp-server/src/request.rs:205-285, 337-469, message.rs:20-49. -/
def RequestAs [Ext] (j o : Json) : Prop :=
  ∃ ms i m p, j = .obj ms ∧ Once "id" ms i ∧ Conforms .numOrStr i ∧ Once "method" ms (.str m) ∧
    Once "params" ms p ∧ Conforms (paramsTy requestTable m) (canon p) ∧
    o = .obj ([("jsonrpc", .str "2.0"), ("id", i), ("method", .str m)] ++
      if m ∈ bareRequests then [] else put "params" (some .null) (clean (paramsTy requestTable m) (canon p)))

/-- `j` is a response, and passed on it becomes `o`.
Specification of bsp-server/src/response.rs:4-22, message.rs:20-49. -/
def ResponseAs [Ext] (j o : Json) : Prop :=
  Conforms responseTy j ∧ ∃ ms, clean responseTy j = .obj ms ∧ o = .obj (("jsonrpc", .str "2.0") :: ms)

/-- `j` is a notification, and passed on it becomes `o`.
Specification of bsp-server/src/notification.rs:99-122, 159-267, message.rs:20-49. -/
def NotificationAs [Ext] (j o : Json) : Prop :=
  ∃ ms m, j = .obj ms ∧ Once "method" ms (.str m) ∧
    ((∃ p, Once "params" ms p ∧ Conforms (paramsTy notificationTable m) (canon p) ∧
      o = .obj ([("jsonrpc", .str "2.0"), ("method", .str m)] ++
        if m ∈ bareNotifications then [] else [("params", clean (paramsTy notificationTable m) (canon p))])) ∨
     ("params" ∉ keys ms ∧ m ∈ bareNotifications ∧ o = .obj [("jsonrpc", .str "2.0"), ("method", .str m)]))

/-- `j` is a message, and passed on it becomes `o`: a request if it can be one, else a response, else a notification.
Specification of bsp-server/src/message.rs:7-49. -/
def PassedAs [Ext] (j o : Json) : Prop :=
  RequestAs j o ∨ (¬ ∃ o', RequestAs j o') ∧ (ResponseAs j o ∨ (¬ ∃ o', ResponseAs j o') ∧ NotificationAs j o)

end Spec

section
variable [Ext]

theorem follows_id : Follows .numOrStr RequestId.dec RequestId.enc := by
  have := follows_numberOrString
  constructor
  · intro j
    rw [← this.1 j]
    simp only [RequestId.dec, NumberOrString.dec]
    cases decI32 j <;> simp
  · intro j x h
    simp only [RequestId.dec] at h
    cases hd : decI32 j with
    | some n =>
      rw [hd] at h; cases h
      rw [← this.2 j (.number n) (by simp [NumberOrString.dec, hd])]; rfl
    | none =>
      rw [hd] at h
      simp only [Option.map_eq_some_iff] at h
      obtain ⟨s, hs, rfl⟩ := h
      rw [← this.2 j (.string s) (by simp [NumberOrString.dec, hd, hs])]; rfl

theorem id_clean {i : Json} {id : RequestId} (h : IdOf i id) : Conforms .numOrStr i ∧ id.enc = i := by
  have hd := (idOf_iff i id).2 h
  refine ⟨(follows_id.1 i).1 (by rw [hd]; rfl), ?_⟩
  rw [follows_id.2 i id hd]; simp [clean]

theorem id_of_conforms {i : Json} (h : Conforms .numOrStr i) : ∃ id, IdOf i id := by
  obtain ⟨id, hid⟩ := Option.isSome_iff_exists.1 ((follows_id.1 i).2 h)
  exact ⟨id, (idOf_iff i id).1 hid⟩

theorem put_obj_param {k : String} {ms : Members} : put k (some .null) (.obj ms) = [(k, .obj ms)] := by
  simp [put]

theorem reqMeaning_as {id : RequestId} {m : String} {p : Value} {r : Request} (h : ReqMeaning id m p r) :
    Conforms (paramsTy requestTable m) p.json ∧ r.members = [("id", id.enc), ("method", .str m)] ++
      if m ∈ bareRequests then [] else put "params" (some .null) (clean (paramsTy requestTable m) p.json) := by
  cases h with
  | «initialize» h =>
    rename_i x
    refine ⟨(InitializeBuild.follows.1 _).1 (by rw [h]; rfl), ?_⟩
    have := InitializeBuild.follows.2 _ x h
    have hp : paramsTy requestTable "build/initialize" = InitializeBuild.ty := rfl
    rw [hp, ← this]
    simp [bareRequests, InitializeBuild.enc, put, Request.members, Request.method]
  | dependencyModules h =>
    rename_i x
    refine ⟨(BuildTargetDependencyModules.follows.1 _).1 (by rw [h]; rfl), ?_⟩
    have := BuildTargetDependencyModules.follows.2 _ x h
    have hp : paramsTy requestTable "buildTarget/dependencyModules" = BuildTargetDependencyModules.ty := rfl
    rw [hp, ← this]
    simp [bareRequests, BuildTargetDependencyModules.enc, put, Request.members, Request.method]
  | debug h =>
    rename_i x
    refine ⟨(DebugSessionStart.follows.1 _).1 (by rw [h]; rfl), ?_⟩
    have := DebugSessionStart.follows.2 _ x h
    have hp : paramsTy requestTable "debugSession/start" = DebugSessionStart.ty := rfl
    rw [hp, ← this]
    simp [bareRequests, DebugSessionStart.enc, put, Request.members, Request.method]
  | sources h =>
    rename_i x
    refine ⟨(BuildTargetSources.follows.1 _).1 (by rw [h]; rfl), ?_⟩
    have := BuildTargetSources.follows.2 _ x h
    have hp : paramsTy requestTable "buildTarget/sources" = BuildTargetSources.ty := rfl
    rw [hp, ← this]
    simp [bareRequests, BuildTargetSources.enc, put, Request.members, Request.method]
  | inverseSources h =>
    rename_i x
    refine ⟨(TextDocumentInverseSources.follows.1 _).1 (by rw [h]; rfl), ?_⟩
    have := TextDocumentInverseSources.follows.2 _ x h
    have hp : paramsTy requestTable "textDocument/inverseSources" = TextDocumentInverseSources.ty := rfl
    rw [hp, ← this]
    simp [bareRequests, TextDocumentInverseSources.enc, put, Request.members, Request.method]
  | dependencySources h =>
    rename_i x
    refine ⟨(BuildTargetDependencySources.follows.1 _).1 (by rw [h]; rfl), ?_⟩
    have := BuildTargetDependencySources.follows.2 _ x h
    have hp : paramsTy requestTable "buildTarget/dependencySources" = BuildTargetDependencySources.ty := rfl
    rw [hp, ← this]
    simp [bareRequests, BuildTargetDependencySources.enc, put, Request.members, Request.method]
  | resources h =>
    rename_i x
    refine ⟨(BuildTargetResources.follows.1 _).1 (by rw [h]; rfl), ?_⟩
    have := BuildTargetResources.follows.2 _ x h
    have hp : paramsTy requestTable "buildTarget/resources" = BuildTargetResources.ty := rfl
    rw [hp, ← this]
    simp [bareRequests, BuildTargetResources.enc, put, Request.members, Request.method]
  | run h =>
    rename_i x
    refine ⟨(BuildTargetRun.follows.1 _).1 (by rw [h]; rfl), ?_⟩
    have := BuildTargetRun.follows.2 _ x h
    have hp : paramsTy requestTable "buildTarget/run" = BuildTargetRun.ty := rfl
    rw [hp, ← this]
    simp [bareRequests, BuildTargetRun.enc, put, Request.members, Request.method]
  | compile h =>
    rename_i x
    refine ⟨(BuildTargetCompile.follows.1 _).1 (by rw [h]; rfl), ?_⟩
    have := BuildTargetCompile.follows.2 _ x h
    have hp : paramsTy requestTable "buildTarget/compile" = BuildTargetCompile.ty := rfl
    rw [hp, ← this]
    simp [bareRequests, BuildTargetCompile.enc, put, Request.members, Request.method]
  | test h =>
    rename_i x
    refine ⟨(BuildTargetTest.follows.1 _).1 (by rw [h]; rfl), ?_⟩
    have := BuildTargetTest.follows.2 _ x h
    have hp : paramsTy requestTable "buildTarget/test" = BuildTargetTest.ty := rfl
    rw [hp, ← this]
    simp [bareRequests, BuildTargetTest.enc, put, Request.members, Request.method]
  | cleanCache h =>
    rename_i x
    refine ⟨(BuildTargetCleanCache.follows.1 _).1 (by rw [h]; rfl), ?_⟩
    have := BuildTargetCleanCache.follows.2 _ x h
    have hp : paramsTy requestTable "buildTarget/cleanCache" = BuildTargetCleanCache.ty := rfl
    rw [hp, ← this]
    simp [bareRequests, BuildTargetCleanCache.enc, put, Request.members, Request.method]
  | shutdown => exact ⟨trivial, rfl⟩
  | buildTargets => exact ⟨trivial, rfl⟩
  | reload => exact ⟨trivial, rfl⟩
  | custom h =>
    simp only [requestMethods, List.mem_cons, List.not_mem_nil, or_false, not_or] at h
    obtain ⟨h1, h2, h3, h4, h5, h6, h7, h8, h9, h10, h11, h12, h13, h14⟩ := h
    have hl : requestTable.lookup m = none := by
      simp [requestTable, List.lookup_eq_none_iff, *]
    have hb : m ∉ bareRequests := by simp [bareRequests, *]
    simp only [paramsTy, hl, Option.getD_none, Conforms, clean, hb, if_false, true_and]
    simp only [Request.members, Request.method, p.canon_json, put]
    by_cases hn : p.json = .null
    · simp [hn, Value.isNull]
    · have hn' := Ne.symm hn
      simp [Value.isNull, hn, hn']

theorem reqMeaning_of (id : RequestId) (m : String) (p : Value) (h : Conforms (paramsTy requestTable m) p.json) :
    ∃ r, ReqMeaning id m p r := by
  by_cases hm : m ∈ requestMethods
  · simp only [requestMethods, List.mem_cons, List.not_mem_nil, or_false] at hm
    rcases hm with rfl | rfl | rfl | rfl | rfl | rfl | rfl | rfl | rfl | rfl | rfl | rfl | rfl | rfl
    · obtain ⟨x, hx⟩ := Option.isSome_iff_exists.1 ((InitializeBuild.follows.1 _).2 h)
      exact ⟨_, .initialize hx⟩
    · exact ⟨_, .shutdown⟩
    · exact ⟨_, .buildTargets⟩
    · exact ⟨_, .reload⟩
    · obtain ⟨x, hx⟩ := Option.isSome_iff_exists.1 ((BuildTargetDependencyModules.follows.1 _).2 h)
      exact ⟨_, .dependencyModules hx⟩
    · obtain ⟨x, hx⟩ := Option.isSome_iff_exists.1 ((DebugSessionStart.follows.1 _).2 h)
      exact ⟨_, .debug hx⟩
    · obtain ⟨x, hx⟩ := Option.isSome_iff_exists.1 ((BuildTargetSources.follows.1 _).2 h)
      exact ⟨_, .sources hx⟩
    · obtain ⟨x, hx⟩ := Option.isSome_iff_exists.1 ((TextDocumentInverseSources.follows.1 _).2 h)
      exact ⟨_, .inverseSources hx⟩
    · obtain ⟨x, hx⟩ := Option.isSome_iff_exists.1 ((BuildTargetDependencySources.follows.1 _).2 h)
      exact ⟨_, .dependencySources hx⟩
    · obtain ⟨x, hx⟩ := Option.isSome_iff_exists.1 ((BuildTargetResources.follows.1 _).2 h)
      exact ⟨_, .resources hx⟩
    · obtain ⟨x, hx⟩ := Option.isSome_iff_exists.1 ((BuildTargetRun.follows.1 _).2 h)
      exact ⟨_, .run hx⟩
    · obtain ⟨x, hx⟩ := Option.isSome_iff_exists.1 ((BuildTargetCompile.follows.1 _).2 h)
      exact ⟨_, .compile hx⟩
    · obtain ⟨x, hx⟩ := Option.isSome_iff_exists.1 ((BuildTargetTest.follows.1 _).2 h)
      exact ⟨_, .test hx⟩
    · obtain ⟨x, hx⟩ := Option.isSome_iff_exists.1 ((BuildTargetCleanCache.follows.1 _).2 h)
      exact ⟨_, .cleanCache hx⟩
  · exact ⟨_, .custom hm⟩

theorem notMeaning_as {m : String} {p : Value} {n : Notification} (h : NotMeaning m p n) :
    Conforms (paramsTy notificationTable m) p.json ∧ n.members = [("method", .str m)] ++
      if m ∈ bareNotifications then [] else [("params", clean (paramsTy notificationTable m) p.json)] := by
  cases h with
  | showMessage h =>
    rename_i x
    refine ⟨(ShowMessage.follows.1 _).1 (by rw [h]; rfl), ?_⟩
    have := ShowMessage.follows.2 _ x h
    have hp : paramsTy notificationTable "build/showMessage" = ShowMessage.ty := rfl
    rw [hp, ← this]
    simp [bareNotifications, Notification.members, Notification.method]
  | logMessage h =>
    rename_i x
    refine ⟨(LogMessage.follows.1 _).1 (by rw [h]; rfl), ?_⟩
    have := LogMessage.follows.2 _ x h
    have hp : paramsTy notificationTable "build/logMessage" = LogMessage.ty := rfl
    rw [hp, ← this]
    simp [bareNotifications, Notification.members, Notification.method]
  | publishDiagnostics h =>
    rename_i x
    refine ⟨(PublishDiagnostics.follows.1 _).1 (by rw [h]; rfl), ?_⟩
    have := PublishDiagnostics.follows.2 _ x h
    have hp : paramsTy notificationTable "build/publishDiagnostics" = PublishDiagnostics.ty := rfl
    rw [hp, ← this]
    simp [bareNotifications, Notification.members, Notification.method]
  | taskStart h =>
    rename_i x
    refine ⟨(TaskStart.follows.1 _).1 (by rw [h]; rfl), ?_⟩
    have := TaskStart.follows.2 _ x h
    have hp : paramsTy notificationTable "build/taskStart" = TaskStart.ty := rfl
    rw [hp, ← this]
    simp [bareNotifications, Notification.members, Notification.method]
  | taskFinish h =>
    rename_i x
    refine ⟨(TaskFinish.follows.1 _).1 (by rw [h]; rfl), ?_⟩
    have := TaskFinish.follows.2 _ x h
    have hp : paramsTy notificationTable "build/taskFinish" = TaskFinish.ty := rfl
    rw [hp, ← this]
    simp [bareNotifications, Notification.members, Notification.method]
  | taskProgress h =>
    rename_i x
    refine ⟨(TaskProgress.follows.1 _).1 (by rw [h]; rfl), ?_⟩
    have := TaskProgress.follows.2 _ x h
    have hp : paramsTy notificationTable "build/taskProgressing" = TaskProgress.ty := rfl
    rw [hp, ← this]
    simp [bareNotifications, Notification.members, Notification.method]
  | didChange h =>
    rename_i x
    refine ⟨(BuildTargetDidChange.follows.1 _).1 (by rw [h]; rfl), ?_⟩
    have := BuildTargetDidChange.follows.2 _ x h
    have hp : paramsTy notificationTable "buildTarget/didChange" = BuildTargetDidChange.ty := rfl
    rw [hp, ← this]
    simp [bareNotifications, Notification.members, Notification.method]
  | exit => exact ⟨trivial, rfl⟩
  | initialized => exact ⟨trivial, rfl⟩
  | custom h =>
    simp only [notificationMethods, List.mem_cons, List.not_mem_nil, or_false, not_or] at h
    obtain ⟨h1, h2, h3, h4, h5, h6, h7, h8, h9⟩ := h
    have hl : notificationTable.lookup m = none := by
      simp [notificationTable, List.lookup_eq_none_iff, *]
    have hb : m ∉ bareNotifications := by simp [bareNotifications, *]
    simp only [paramsTy, hl, Option.getD_none, Conforms, clean, hb, if_false, true_and]
    simp only [Notification.members, Notification.method, p.canon_json]
    rfl

theorem notMeaning_of (m : String) (p : Value) (h : Conforms (paramsTy notificationTable m) p.json) :
    ∃ n, NotMeaning m p n := by
  by_cases hm : m ∈ notificationMethods
  · simp only [notificationMethods, List.mem_cons, List.not_mem_nil, or_false] at hm
    rcases hm with rfl | rfl | rfl | rfl | rfl | rfl | rfl | rfl | rfl
    · exact ⟨_, .exit⟩
    · exact ⟨_, .initialized⟩
    · obtain ⟨x, hx⟩ := Option.isSome_iff_exists.1 ((ShowMessage.follows.1 _).2 h)
      exact ⟨_, .showMessage hx⟩
    · obtain ⟨x, hx⟩ := Option.isSome_iff_exists.1 ((LogMessage.follows.1 _).2 h)
      exact ⟨_, .logMessage hx⟩
    · obtain ⟨x, hx⟩ := Option.isSome_iff_exists.1 ((PublishDiagnostics.follows.1 _).2 h)
      exact ⟨_, .publishDiagnostics hx⟩
    · obtain ⟨x, hx⟩ := Option.isSome_iff_exists.1 ((TaskStart.follows.1 _).2 h)
      exact ⟨_, .taskStart hx⟩
    · obtain ⟨x, hx⟩ := Option.isSome_iff_exists.1 ((TaskFinish.follows.1 _).2 h)
      exact ⟨_, .taskFinish hx⟩
    · obtain ⟨x, hx⟩ := Option.isSome_iff_exists.1 ((TaskProgress.follows.1 _).2 h)
      exact ⟨_, .taskProgress hx⟩
    · obtain ⟨x, hx⟩ := Option.isSome_iff_exists.1 ((BuildTargetDidChange.follows.1 _).2 h)
      exact ⟨_, .didChange hx⟩
  · exact ⟨_, .custom hm⟩

theorem ResponseError.follows : Follows (.struct <|
    .cons "code" .required none (.int (-2 ^ 31) (2 ^ 31)) <|
    .cons "message" .required none .str <|
    .cons "data" .optional (some .null) (.opt .any) .nil) ResponseError.dec ResponseError.enc := by
  have g0 := fun s : Src => got_req (i := 0) (k := "code") follows_i32 s
  have g1 := fun s : Src => got_req (i := 1) (k := "message") follows_str s
  have g2 := fun s : Src => got_opt (i := 2) (k := "data") follows_value s
  refine follows_struct (fields := fields) rfl (fun j h => by simp only [dec, h]; rfl) ?_ ?_
  · intro j s hs
    constructor
    · intro h
      obtain ⟨x, hx⟩ := Option.isSome_iff_exists.1 h
      obtain ⟨s', hs', h0, h1, h2⟩ := dec_inv hx
      cases hs'.symm.trans hs
      exact ⟨(g0 s).ok h0, (g1 s).ok h1, (g2 s).ok h2, trivial⟩
    · rintro ⟨o0, o1, o2, -⟩
      obtain ⟨a0, h0⟩ := (g0 s).some o0
      obtain ⟨a1, h1⟩ := (g1 s).some o1
      obtain ⟨a2, h2⟩ := (g2 s).some o2
      have : dec j = some _ :=
        (bind_of_some hs).trans ((bind_of_some h0).trans ((bind_of_some h1).trans (bind_of_some h2)))
      rw [this]; rfl
  · intro j s x hs hx
    obtain ⟨s', hs', h0, h1, h2⟩ := dec_inv hx
    cases hs'.symm.trans hs
    have e0 := put_fld (k := "code") ((g0 s).2 _ h0)
    have e1 := put_fld (k := "message") ((g1 s).2 _ h1)
    have e2 := put_skipNone (k := "data") ((g2 s).2 _ h2)
      (fun v hv => Value.json_ne_null (opt_value_plain h2) hv)
    simp only [enc, e0, e1, e2, allClean, List.append_assoc, List.append_nil]

theorem Response.follows : Follows responseTy Response.dec (fun r => .obj r.members) := by
  have g0 := fun s : Src => got_req (i := 0) (k := "id") follows_id s
  have g1 := fun s : Src => got_opt (i := 1) (k := "result") follows_value s
  have g2 := fun s : Src => got_opt (i := 2) (k := "error") ResponseError.follows s
  refine follows_struct (fields := fields) rfl (fun j h => by simp only [dec, h]; rfl) ?_ ?_
  · intro j s hs
    constructor
    · intro h
      obtain ⟨x, hx⟩ := Option.isSome_iff_exists.1 h
      obtain ⟨s', hs', h0, h1, h2⟩ := dec_inv hx
      cases hs'.symm.trans hs
      exact ⟨(g0 s).ok h0, (g1 s).ok h1, (g2 s).ok h2, trivial⟩
    · rintro ⟨o0, o1, o2, -⟩
      obtain ⟨a0, h0⟩ := (g0 s).some o0
      obtain ⟨a1, h1⟩ := (g1 s).some o1
      obtain ⟨a2, h2⟩ := (g2 s).some o2
      have : dec j = some _ :=
        (bind_of_some hs).trans ((bind_of_some h0).trans ((bind_of_some h1).trans (bind_of_some h2)))
      rw [this]; rfl
  · intro j s x hs hx
    obtain ⟨s', hs', h0, h1, h2⟩ := dec_inv hx
    cases hs'.symm.trans hs
    have e0 := put_fld (k := "id") ((g0 s).2 _ h0)
    have e1 := put_skipNone (k := "result") ((g1 s).2 _ h1)
      (fun v hv => Value.json_ne_null (opt_value_plain h1) hv)
    have e2 := put_skipNone (k := "error") ((g2 s).2 _ h2) (by simp [ResponseError.enc])
    simp only [members, e0, e1, e2, allClean, List.append_assoc, List.append_nil]

theorem request_as (j o : Json) : (∃ r, Request.dec j = some r ∧ Message.enc (.request r) = o) ↔ RequestAs j o := by
  constructor
  · rintro ⟨r, hr, rfl⟩
    obtain ⟨ms, i, m, p, id, rfl, h1, h2, h3, h4, h5⟩ := (usableRequest_iff j r).1 hr
    obtain ⟨hc, hm⟩ := reqMeaning_as h5
    refine ⟨ms, i, m, p, rfl, h1, (id_clean h2).1, h3, h4, hc, ?_⟩
    simp only [Message.enc, Message.members, hm, (id_clean h2).2]
    rfl
  · rintro ⟨ms, i, m, p, rfl, h1, h2, h3, h4, h5, rfl⟩
    obtain ⟨id, hid⟩ := id_of_conforms h2
    obtain ⟨r, hr⟩ := reqMeaning_of id m (Value.ofJson p) h5
    refine ⟨r, (usableRequest_iff _ r).2 ⟨ms, i, m, p, id, rfl, h1, hid, h3, h4, hr⟩, ?_⟩
    simp only [Message.enc, Message.members, (reqMeaning_as hr).2, (id_clean hid).2]
    rfl

theorem response_as (j o : Json) :
    (∃ r, Response.dec j = some r ∧ Message.enc (.response r) = o) ↔ ResponseAs j o := by
  constructor
  · rintro ⟨r, hr, rfl⟩
    exact ⟨(Response.follows.1 j).1 (by rw [hr]; rfl), r.members, (Response.follows.2 j r hr).symm, rfl⟩
  · rintro ⟨h1, ms, h2, rfl⟩
    obtain ⟨r, hr⟩ := Option.isSome_iff_exists.1 ((Response.follows.1 j).2 h1)
    have := Response.follows.2 j r hr
    rw [h2] at this
    cases this
    exact ⟨r, hr, rfl⟩

theorem notification_as (j o : Json) :
    (∃ n, Notification.dec j = some n ∧ Message.enc (.notification n) = o) ↔ NotificationAs j o := by
  constructor
  · rintro ⟨n, hn, rfl⟩
    obtain ⟨ms, m, rfl, h1, h⟩ := (usableNotification_iff j n).1 hn
    refine ⟨ms, m, rfl, h1, ?_⟩
    rcases h with ⟨p, h2, h3⟩ | ⟨h2, h3, h4⟩
    · obtain ⟨hc, hm⟩ := notMeaning_as h3
      refine .inl ⟨p, h2, hc, ?_⟩
      simp only [Message.enc, Message.members, hm]
      rfl
    · have hb : m ∈ bareNotifications := by simpa [bareNotifications] using h3
      refine .inr ⟨h2, hb, ?_⟩
      simp only [Message.enc, Message.members, (notMeaning_as h4).2, hb, if_true, List.append_nil]
  · rintro ⟨ms, m, rfl, h1, ⟨p, h2, h3, rfl⟩ | ⟨h2, h3, rfl⟩⟩
    · obtain ⟨n, hn⟩ := notMeaning_of m (Value.ofJson p) h3
      refine ⟨n, (usableNotification_iff _ n).2 ⟨ms, m, rfl, h1, .inl ⟨p, h2, hn⟩⟩, ?_⟩
      simp only [Message.enc, Message.members, (notMeaning_as hn).2]
      rfl
    · have hb : m = "build/exit" ∨ m = "build/initialized" := by simpa [bareNotifications] using h3
      have : ∃ n, NotMeaning m Value.null n := by
        rcases hb with rfl | rfl
        · exact ⟨_, .exit⟩
        · exact ⟨_, .initialized⟩
      obtain ⟨n, hn⟩ := this
      refine ⟨n, (usableNotification_iff _ n).2 ⟨ms, m, rfl, h1, .inr ⟨h2, hb, hn⟩⟩, ?_⟩
      simp only [Message.enc, Message.members, (notMeaning_as hn).2, h3, if_true, List.append_nil]

theorem exists_as {α : Type} {d : Option α} {e : α → Json} {P : Json → Prop}
    (h : ∀ o, (∃ r, d = some r ∧ e r = o) ↔ P o) : d = none ↔ ¬ ∃ o, P o := by
  cases d with
  | none =>
    simp only [true_iff]
    rintro ⟨o, ho⟩
    obtain ⟨r, hr, _⟩ := (h o).2 ho
    cases hr
  | some r =>
    simp only [reduceCtorEq, false_iff, Classical.not_not]
    exact ⟨e r, (h _).1 ⟨r, rfl, rfl⟩⟩

/-- C100: a tree is received as a request exactly if it is a request according to the table of methods and schemas, and
passed on it becomes exactly what the table says. -/
theorem C100_request (j o : Json) :
    (∃ r, Message.dec j = some (.request r) ∧ Message.enc (.request r) = o) ↔ RequestAs j o := by
  rw [← request_as]
  simp only [Message.dec]
  cases h : Request.dec j with
  | some r => simp
  | none =>
    cases Response.dec j with
    | some r => simp
    | none => cases Notification.dec j <;> simp

/-- C100: a response is what is not a request and conforms to the schema of responses. -/
theorem C100_response (j o : Json) :
    (∃ r, Message.dec j = some (.response r) ∧ Message.enc (.response r) = o) ↔
      (¬ ∃ o', RequestAs j o') ∧ ResponseAs j o := by
  rw [← response_as, ← exists_as (request_as j)]
  simp only [Message.dec]
  cases h : Request.dec j with
  | some r => simp
  | none =>
    cases Response.dec j with
    | some r => simp
    | none => cases Notification.dec j <;> simp

/-- C100: a notification is what is neither and is a notification according to the table. -/
theorem C100_notification (j o : Json) :
    (∃ n, Message.dec j = some (.notification n) ∧ Message.enc (.notification n) = o) ↔
      (¬ ∃ o', RequestAs j o') ∧ (¬ ∃ o', ResponseAs j o') ∧ NotificationAs j o := by
  rw [← notification_as, ← exists_as (request_as j), ← exists_as (response_as j)]
  simp only [Message.dec]
  cases h : Request.dec j with
  | some r => simp
  | none =>
    cases Response.dec j with
    | some r => simp
    | none => cases Notification.dec j <;> simp

/-- C100: so a tree is accepted exactly if it is one of the three. -/
theorem C100_accepts (j : Json) :
    (Message.dec j).isSome = true ↔
      (∃ o, RequestAs j o) ∨ (∃ o, ResponseAs j o) ∨ ∃ o, NotificationAs j o := by
  have h1 := exists_as (request_as j)
  have h2 := exists_as (response_as j)
  have h3 := exists_as (notification_as j)
  simp only [Message.dec]
  cases ha : Request.dec j with
  | some r => rw [ha] at h1; simp at h1 ⊢; exact .inl h1
  | none =>
    cases hb : Response.dec j with
    | some r => rw [hb] at h2; simp at h2 ⊢; exact .inr (.inl h2)
    | none =>
      cases hc : Notification.dec j with
      | some r => rw [hc] at h3; simp at h3 ⊢; exact .inr (.inr h3)
      | none =>
        simp only [ha, hb, hc, true_iff] at h1 h2 h3
        simp [h1, h2, h3]

theorem passed_as (j o : Json) : (∃ m, Message.dec j = some m ∧ m.enc = o) ↔ PassedAs j o := by
  have h1 := C100_request j o
  have h2 := C100_response j o
  have h3 := C100_notification j o
  constructor
  · rintro ⟨m, hm, he⟩
    cases m with
    | request r => exact .inl (h1.1 ⟨r, hm, he⟩)
    | response r => have := h2.1 ⟨r, hm, he⟩; exact .inr ⟨this.1, .inl this.2⟩
    | notification n => have := h3.1 ⟨n, hm, he⟩; exact .inr ⟨this.1, .inr this.2⟩
  · rintro (h | ⟨h, h' | h'⟩)
    · obtain ⟨r, hr, he⟩ := h1.2 h; exact ⟨_, hr, he⟩
    · obtain ⟨r, hr, he⟩ := h2.2 ⟨h, h'⟩; exact ⟨_, hr, he⟩
    · obtain ⟨r, hr, he⟩ := h3.2 ⟨h, h'⟩; exact ⟨_, hr, he⟩

/-- C100 from text to text: a text is read as a message that is written again as `out` exactly if it is the text of a
tree that is passed on as a tree of which `out` is the frame. -/
theorem C100_text [FloatText] (cs : List Char) (out : Bytes) :
    (∃ m, (Text.parse cs).bind Message.dec = some m ∧ Frame.write m = out) ↔
      ∃ j o, Gram.JsonText 127 cs j ∧ PassedAs j o ∧ out = Frame.frame (Text.print o) := by
  constructor
  · rintro ⟨m, hm, rfl⟩
    obtain ⟨j, hj, hm⟩ := Option.bind_eq_some_iff.1 hm
    exact ⟨j, m.enc, Text.parse_iff.1 hj, (passed_as j _).1 ⟨m, hm, rfl⟩, rfl⟩
  · rintro ⟨j, o, hj, ho, rfl⟩
    obtain ⟨m, hm, rfl⟩ := (passed_as j o).2 ho
    exact ⟨m, by rw [Text.parse_iff.2 hj]; exact hm, rfl⟩

end

/-! ### Cases -/

section
attribute [local instance] Ext.sample

/-- Parameters of a compile request as a client may write them: positional target, unknown member, null. -/
def looseCompile : Json :=
  .obj [("arguments", .null), ("x", .bool true), ("target", .arr [.str "a:b"])]

/-- What is left of it. -/
def tightCompile : Json := .obj [("target", .obj [("uri", .str "a:b")])]

theorem looseCompile_conforms : Conforms Payload.buildTargetCompile.ty looseCompile := by
  refine .inl ⟨_, rfl, .inr ⟨.arr [.str "a:b"], ⟨[_, _], [], rfl, by decide, by decide⟩, .inr ⟨_, rfl, ?_, rfl⟩⟩,
    .inl ⟨by decide, by simp⟩, .inr ⟨.null, ⟨[], [_, _], rfl, by decide, by decide⟩, .inl rfl⟩, trivial⟩
  exact ⟨"a:b", ⟨"a:b", by decide⟩, rfl, rfl⟩

/-- Beside C98: the loose form is accepted. -/
example : (Payload.buildTargetCompile.dec looseCompile).isSome = true :=
  (C98_accepts _ _).2 looseCompile_conforms

/-- Beside C98: a duplicate member, a target that is a string, and a fourth element are not. -/
example : ¬ Conforms Payload.buildTargetCompile.ty (.obj [("target", .arr [.str "a:b"]), ("target", .arr [.str "a:b"])]) ∧
    ¬ Conforms Payload.buildTargetCompile.ty (.obj [("target", .str "a:b")]) ∧
    ¬ Conforms Payload.buildTargetCompile.ty (.arr [.arr [.str "a:b"], .null, .null, .null]) := by
  refine ⟨?_, ?_, ?_⟩ <;> rw [← C98_accepts] <;> decide

/-- Beside C99: what is left of the loose form. -/
example (x : BuildTargetCompile) (h : BuildTargetCompile.dec looseCompile = some x) : x.enc = tightCompile :=
  (C99_reencode .buildTargetCompile looseCompile x h).trans rfl

/-- Beside C99: a task with its defaults spelled out, and a kind that is not a string. -/
example (x : TaskStart) (h : TaskStart.dec (.obj [("message", .str ""), ("dataKind", .int 5), ("taskId", .arr [])]) = some x) :
    x.enc = .obj [("taskId", .obj [("id", .str "")])] :=
  (C99_reencode .taskStart _ x h).trans rfl

/-- Beside C99_stable. -/
example : clean Payload.buildTargetCompile.ty (canon tightCompile) = tightCompile :=
  C99_stable .buildTargetCompile ⟨⟨⟨"a:b", by decide⟩⟩, none, none⟩ trivial

/-- Beside C100_request: the request of C83 is passed on in its tight form. -/
example : RequestAs oddTree (.obj [("jsonrpc", .str "2.0"), ("id", .int 7), ("method", .str "buildTarget/compile"),
    ("params", tightCompile)]) :=
  (C100_request oddTree _).1 ⟨_, oddTree_dec, rfl⟩

/-- Beside C100_response: a shutdown request without params is a response. -/
example : ResponseAs (.obj [("id", .int 3), ("method", .str "build/shutdown")]) (.obj [("jsonrpc", .str "2.0"), ("id", .int 3)]) :=
  ((C100_response _ _).1 ⟨⟨.i32 3, none, none⟩, by rfl, by rfl⟩).2

/-- Beside C100_notification: exit with parameters is passed on without them. -/
example : NotificationAs (.obj [("params", .int 3), ("method", .str "build/exit")])
    (.obj [("jsonrpc", .str "2.0"), ("method", .str "build/exit")]) :=
  ((C100_notification _ _).1 ⟨.exit, by rfl, by rfl⟩).2.2

/-- Beside C100_accepts: an id that is not a 32-bit integer makes a message unusable. -/
example : ¬ ((∃ o, RequestAs (.obj [("id", .int 4294967296)]) o) ∨ (∃ o, ResponseAs (.obj [("id", .int 4294967296)]) o) ∨
    ∃ o, NotificationAs (.obj [("id", .int 4294967296)]) o) := by
  rw [← C100_accepts]; decide

attribute [local instance] FloatText.sample in
/-- Beside C100_text. -/
example : ∃ j o, Gram.JsonText 127 (Text.print oddTree) j ∧ PassedAs j o ∧ Frame.write oddMsg = Frame.frame (Text.print o) :=
  (C100_text _ _).1 ⟨oddMsg, by
    rw [Text.parse_print (j := oddTree) (by decide)
      (by simp [oddTree, Spec.Numbers, Spec.NumbersMembers, Spec.NumbersList]), Option.bind_some, oddTree_dec], rfl⟩

end
end Bsp
