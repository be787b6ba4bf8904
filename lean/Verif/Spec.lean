/-
Specification vocabulary for the message layer, written without reference to the decoding loops:
which members occur, what an id is, what a request / response / notification with given members
means.  The payload types appear through their own decoders (specified in Verif/Payload.lean and
Verif/Props/Payload.lean).
-/
import Verif.Message

namespace Bsp.Spec
open Json

/-- Names of the members of an object.
Specification, for bsp-server/src/request.rs and notification.rs. -/
def keys (ms : Members) : List String := ms.map (·.1)

/-- Member `k` occurs exactly once, with value `v`.
Specification of the required members in bsp-server/src/request.rs, notification.rs and response.rs:5-22. -/
def Once (k : String) (ms : Members) (v : Json) : Prop :=
  ∃ a b, ms = a ++ (k, v) :: b ∧ k ∉ keys a ∧ k ∉ keys b

/-- An optional member: absent or null (`none`), or there once with a value accepted by `P`.
Specification of the optional members in bsp-server/src/response.rs:10-13, 20-21. -/
def OptOnce (k : String) (ms : Members) (P : Json → α → Prop) (o : Option α) : Prop :=
  (k ∉ keys ms ∧ o = none) ∨ (Once k ms .null ∧ o = none) ∨
  ∃ j x, Once k ms j ∧ j ≠ .null ∧ P j x ∧ o = some x

/-- An optional array element: null (`none`) or a value accepted by `P`.
Specification of the optional members in bsp-server/src/response.rs:10-13, 20-21, given by position. -/
def OptElem (j : Json) (P : Json → α → Prop) (o : Option α) : Prop :=
  (j = .null ∧ o = none) ∨ ∃ x, j ≠ .null ∧ P j x ∧ o = some x

/-- JSON-RPC ids as this library understands them: 32-bit integers and strings.
Specification of bsp-server/src/request/id.rs:4-13. -/
inductive IdOf : Json → RequestId → Prop
  | num (i : Int) (h : -(2 ^ 31) ≤ i ∧ i < 2 ^ 31) : IdOf (.int i) (.i32 (Int32.ofInt i))
  | str (s : String) : IdOf (.str s) (.str s)

/-- The BSP request methods (bsp-types documentation; request.rs:59-72). -/
def requestMethods : List String :=
  ["build/initialize", "build/shutdown", "workspace/buildTargets", "workspace/reload",
   "buildTarget/dependencyModules", "debugSession/start", "buildTarget/sources",
   "textDocument/inverseSources", "buildTarget/dependencySources", "buildTarget/resources",
   "buildTarget/run", "buildTarget/compile", "buildTarget/test", "buildTarget/cleanCache"]

/-- The BSP notification methods as the code spells them (notification.rs:34-42). -/
def notificationMethods : List String :=
  ["build/exit", "build/initialized", "build/showMessage", "build/logMessage",
   "build/publishDiagnostics", "build/taskStart", "build/taskFinish", "build/taskProgressing",
   "buildTarget/didChange"]

/-- Meaning of a request: id, method and params (as a `Value`).
Specification of bsp-server/src/request.rs:18-120. -/
inductive ReqMeaning [Ext] : RequestId → String → Value → Request → Prop
  | initialize (h : InitializeBuild.dec p.json = some x) :
      ReqMeaning i "build/initialize" p (.initializeBuild i x)
  | shutdown : ReqMeaning i "build/shutdown" p (.shutdown i)
  | buildTargets : ReqMeaning i "workspace/buildTargets" p (.workspaceBuildTargets i)
  | reload : ReqMeaning i "workspace/reload" p (.workspaceReload i)
  | dependencyModules (h : BuildTargetDependencyModules.dec p.json = some x) :
      ReqMeaning i "buildTarget/dependencyModules" p (.buildTargetDependencyModules i x)
  | debug (h : DebugSessionStart.dec p.json = some x) :
      ReqMeaning i "debugSession/start" p (.debugSessionStart i x)
  | sources (h : BuildTargetSources.dec p.json = some x) :
      ReqMeaning i "buildTarget/sources" p (.buildTargetSources i x)
  | inverseSources (h : TextDocumentInverseSources.dec p.json = some x) :
      ReqMeaning i "textDocument/inverseSources" p (.textDocumentInverseSources i x)
  | dependencySources (h : BuildTargetDependencySources.dec p.json = some x) :
      ReqMeaning i "buildTarget/dependencySources" p (.buildTargetDependencySources i x)
  | resources (h : BuildTargetResources.dec p.json = some x) :
      ReqMeaning i "buildTarget/resources" p (.buildTargetResources i x)
  | run (h : BuildTargetRun.dec p.json = some x) :
      ReqMeaning i "buildTarget/run" p (.buildTargetRun i x)
  | compile (h : BuildTargetCompile.dec p.json = some x) :
      ReqMeaning i "buildTarget/compile" p (.buildTargetCompile i x)
  | test (h : BuildTargetTest.dec p.json = some x) :
      ReqMeaning i "buildTarget/test" p (.buildTargetTest i x)
  | cleanCache (h : BuildTargetCleanCache.dec p.json = some x) :
      ReqMeaning i "buildTarget/cleanCache" p (.buildTargetCleanCache i x)
  | custom (h : m ∉ requestMethods) : ReqMeaning i m p (.custom i m p)

/-- Meaning of a notification: method and params.
Specification of bsp-server/src/notification.rs:17-46. -/
inductive NotMeaning [Ext] : String → Value → Notification → Prop
  | exit : NotMeaning "build/exit" p .exit
  | initialized : NotMeaning "build/initialized" p .initialized
  | showMessage (h : ShowMessage.dec p.json = some x) :
      NotMeaning "build/showMessage" p (.showMessage x)
  | logMessage (h : LogMessage.dec p.json = some x) :
      NotMeaning "build/logMessage" p (.logMessage x)
  | publishDiagnostics (h : PublishDiagnostics.dec p.json = some x) :
      NotMeaning "build/publishDiagnostics" p (.publishDiagnostics x)
  | taskStart (h : TaskStart.dec p.json = some x) : NotMeaning "build/taskStart" p (.taskStart x)
  | taskFinish (h : TaskFinish.dec p.json = some x) :
      NotMeaning "build/taskFinish" p (.taskFinish x)
  | taskProgress (h : TaskProgress.dec p.json = some x) :
      NotMeaning "build/taskProgressing" p (.taskProgress x)
  | didChange (h : BuildTargetDidChange.dec p.json = some x) :
      NotMeaning "buildTarget/didChange" p (.buildTargetDidChange x)
  | custom (h : m ∉ notificationMethods) : NotMeaning m p (.custom m p)

/-- A usable request: an object with exactly one valid id, one method, one params, the params being
accepted by the method.  Other members are irrelevant.
Specification of bsp-server/src/request.rs:337-469. -/
def UsableRequest [Ext] (j : Json) (r : Request) : Prop :=
  ∃ ms i m p id, j = .obj ms ∧ Once "id" ms i ∧ IdOf i id ∧ Once "method" ms (.str m) ∧
    Once "params" ms p ∧ ReqMeaning id m (Value.ofJson p) r

/-- Any JSON datum is acceptable as data; it is kept as a `Value`.
Specification of bsp-server/src/response.rs:11, 21. -/
def AnyValue (j : Json) (v : Value) : Prop := v = Value.ofJson j

/-- An error object (or its positional form). Specification of bsp-server/src/response.rs:16-22. -/
def ErrOf (j : Json) (e : ResponseError) : Prop :=
  (∃ ms c, j = .obj ms ∧ Once "code" ms (.int c) ∧ IdOf (.int c) (.i32 e.code) ∧
    Once "message" ms (.str e.message) ∧ OptOnce "data" ms AnyValue e.data) ∨
  (∃ c d, j = .arr [.int c, .str e.message, d] ∧ IdOf (.int c) (.i32 e.code) ∧
    OptElem d AnyValue e.data)

/-- A usable response: a valid id, result and error optional (or the positional form).
Specification of bsp-server/src/response.rs:4-14. -/
def UsableResponse (j : Json) (r : Response) : Prop :=
  (∃ ms i, j = .obj ms ∧ Once "id" ms i ∧ IdOf i r.id ∧
    OptOnce "result" ms AnyValue r.result ∧ OptOnce "error" ms ErrOf r.error) ∨
  (∃ i a b, j = .arr [i, a, b] ∧ IdOf i r.id ∧ OptElem a AnyValue r.result ∧
    OptElem b ErrOf r.error)

/-- A usable notification: one method, and one params accepted by the method; exit and initialized
may come without params. Specification of bsp-server/src/notification.rs:159-267. -/
def UsableNotification [Ext] (j : Json) (n : Notification) : Prop :=
  ∃ ms m, j = .obj ms ∧ Once "method" ms (.str m) ∧
    ((∃ p, Once "params" ms p ∧ NotMeaning m (Value.ofJson p) n) ∨
     ("params" ∉ keys ms ∧ (m = "build/exit" ∨ m = "build/initialized") ∧
       NotMeaning m Value.null n))

/-- Names that matter at the top level of a message.
Specification, for bsp-server/src/message.rs:7-29. -/
def messageKeys : List String := ["id", "method", "params", "result", "error"]

/-- The requests that have no params, or null: they are written without a `params` member.
Specification, for bsp-server/src/request.rs:214-285. -/
def Bare [Ext] (r : Request) : Prop :=
  ∃ id, r = .shutdown id ∨ r = .workspaceBuildTargets id ∨ r = .workspaceReload id ∨ ∃ m, r = .custom id m Value.null

end Bsp.Spec
