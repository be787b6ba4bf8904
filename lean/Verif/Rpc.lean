/-
Responses as JSON-RPC 2.0 has them, and what a client that keeps to the published protocol (Verif/Protocol.lean) sends,
independently of the code.  JSON-RPC 2.0 is named in bsp-server/src/message.rs:15-29 (`"jsonrpc": "2.0"`); its
specification is not part of /repo.
-/
import Verif.Protocol
import Verif.FrameSpec
import Verif.JsonGrammar
import Verif.Api

namespace Bsp
namespace Protocol
open Json Spec

/-- The error object.  Of the specification of JSON-RPC 2.0 (which has integers of any size), for
bsp-server/src/response.rs:16-22. -/
def errorObject : Shape := .obj <|
  .cons "code" true integer <|
  .cons "message" true .str <|
  .cons "data" false .any .nil

/-- `j` is a response to the request with id `i`: it has either a result or an error, and no method.
Of the specification of JSON-RPC 2.0, for bsp-server/src/response.rs:4-14. -/
def IsResponse [Ext] (i j : Json) : Prop :=
  ∃ ms, j = .obj ms ∧ Spec.Once "jsonrpc" ms (.str "2.0") ∧ Spec.Once "id" ms i ∧ "method" ∉ keys ms ∧
    ((∃ v, Spec.Once "result" ms v ∧ "error" ∉ keys ms) ∨
     (∃ e, Spec.Once "error" ms e ∧ Matches errorObject e ∧ "result" ∉ keys ms))

/-- The type of the result of each request.  Of the specification of the protocol, for bsp-types/src/server.rs:17-186. -/
def resultTypes : List (String × Shape) :=
  [("build/initialize", initializeBuildResult),
   ("build/shutdown", .null),
   ("workspace/buildTargets", buildTargetsResult),
   ("workspace/reload", .null),
   ("buildTarget/sources", sourcesResult),
   ("buildTarget/inverseSources", inverseSourcesResult),
   ("buildTarget/dependencySources", dependencySourcesResult),
   ("buildTarget/dependencyModules", dependencyModulesResult),
   ("buildTarget/resources", resourcesResult),
   ("buildTarget/compile", compileResult),
   ("buildTarget/run", runResult),
   ("buildTarget/test", compileResult),
   ("debugSession/start", debugSessionAddress),
   ("buildTarget/cleanCache", cleanCacheResult)]

/-- `j` is a response of the protocol to a request of method `m` with id `i`: a result has the type for that method.
Of the specification of the protocol, for bsp-server/src/response.rs:4-14. -/
def IsAnswer [Ext] (m : String) (i j : Json) : Prop :=
  IsResponse i j ∧ ∀ v, Part "result" j v → ∃ s, (m, s) ∈ resultTypes ∧ Matches s v

/-- A request of the protocol of method `m` with id `i` that the code takes for a request.
For stating things about bsp-server/src/request.rs:337-469. -/
def Heard [Ext] (m : String) (i j : Json) : Prop :=
  ∃ p, IsRequest m j ∧ Part "id" j i ∧ Part "params" j p ∧
    m ∉ ["buildTarget/compile", "buildTarget/test", "buildTarget/dependencySources"] ∧
    (m = "buildTarget/run" → Lacks "arguments" p)

/-- A request of the protocol that the code takes for an empty response.
For stating things about bsp-server/src/request.rs:337-469. -/
def Lost [Ext] (j : Json) : Prop :=
  ∃ m, IsRequest m j ∧ (Lacks "params" j ∨ ∃ p, Part "params" j p ∧
    ((m ∈ ["buildTarget/compile", "buildTarget/test"] ∧ Lacks "target" p) ∨
     (m = "buildTarget/dependencySources" ∧ Lacks "textDocument" p) ∨
     (m = "buildTarget/run" ∧ ∃ a, Part "arguments" p a)))

/-- A notification of the protocol; the time of the event of a task is in 32 bits.
For stating things about bsp-server/src/notification.rs:159-267. -/
def Told [Ext] (j : Json) : Prop :=
  ∃ m, IsNotification m j ∧ ∀ p t, Part "params" j p → Part "eventTime" p (.int t) →
    m ∈ ["build/taskStart", "build/taskFinish"] → 0 ≤ t ∧ t < 2 ^ 32

/-- What a client sends, and the methods and ids of those of its requests that the code takes for requests.
For stating things about bsp-server/src/message.rs:32-40. -/
inductive Asks [Ext] : List Json → List (String × Json) → Prop
  | nil : Asks [] []
  | heard : Heard m i j → Asks js is → Asks (j :: js) ((m, i) :: is)
  | lost : Lost j → Asks js is → Asks (j :: js) is
  | told : Told j → Asks js is → Asks (j :: js) is
  | answered : IsResponse i j → Matches .intOrStr i → Asks js is → Asks (j :: js) is

/-- Responses of the protocol to the requests with these methods and ids, in order.
For stating things about bsp-server/src/message.rs:42-49. -/
inductive Answers [Ext] : List (String × Json) → List Json → Prop
  | nil : Answers [] []
  | cons : IsAnswer m i j → Answers is js → Answers ((m, i) :: is) (j :: js)

/-- The bytes are frames, one after the other, whose texts are JSON texts of these trees.
For stating things about bsp-server/src/message.rs:58-91. -/
inductive Frames [FloatText] : Bytes → List Json → Prop
  | nil : Frames [] []
  | snoc {bs js f cs j} : Frames bs js → Spec.IsFrame f cs → (utf8 cs).length ≤ 2 ^ 63 - 1 →
      Gram.JsonText 127 cs j → Frames (bs ++ f) (js ++ [j])

/-- The handler in the documentation of `Connection::initialize`, bsp-server/src/lib.rs:99-107.  It returns a `Result`
(as it stands there the type of the error is not determined), of which serde makes an object with one member, `Ok`. -/
def documented [Ext] (_ : InitializeBuild) : Option Value :=
  some (Value.ofJson (.obj [("Ok", (Api.InitializeBuildResult.new_simple "MyBuildServer" "0.1" "2.0"
    Api.default_ServerCapabilities).enc)]))

end Protocol
end Bsp
