/-
Messages: bsp-server/src/request.rs, request/id.rs, response.rs, notification.rs, error.rs and the
serde part of message.rs.
-/
import Verif.Types

namespace Bsp
open Json

/-! ### Request ids -/

/-- `RequestId(IdRepr)`. bsp-server/src/request/id.rs:4-13. -/
inductive RequestId where
  | i32 (i : Int32)
  | str (s : String)
deriving DecidableEq

namespace RequestId
/-- Derived untagged serialiser. request/id.rs:4-13. -/
def enc : RequestId → Json
  | .i32 i => encI32 i
  | .str s => .str s
/-- Derived untagged deserialiser: first as `i32`, then as `String`. request/id.rs:8-13. -/
def dec (j : Json) : Option RequestId :=
  match decI32 j with
  | some i => some (.i32 i)
  | none => (decStr j).map .str
theorem dec_enc (x : RequestId) : dec (canon (enc x)) = some x := by
  cases x with
  | i32 i => simp only [dec, enc, dec_i32]
  | str s => simp [dec, enc, decI32, decStr]
/-- Ids are scalars: conversion to a `Value` does not change them. -/
theorem dec_canon (j : Json) : dec (canon j) = dec j := by
  cases j <;> simp [canon, dec, decI32, decStr]
end RequestId

/-! ### Error codes -/

/-- bsp-server/src/error.rs:61-75. -/
inductive ErrorCode where
  | parseError | invalidRequest | methodNotFound | invalidParams | internalError
  | serverErrorStart | serverErrorEnd | serverNotInitialized | requestCanceled
  | contentModified | serverCancelled
deriving DecidableEq, Repr

/-- Discriminants (`as i32`). error.rs:64-74. -/
def ErrorCode.code : ErrorCode → Int32
  | .parseError => -32700
  | .invalidRequest => -32600
  | .methodNotFound => -32601
  | .invalidParams => -32602
  | .internalError => -32603
  | .serverErrorStart => -32099
  | .serverErrorEnd => -32000
  | .serverNotInitialized => -32002
  | .requestCanceled => -32800
  | .contentModified => -32801
  | .serverCancelled => -32802

/-! ### Responses -/

/-- bsp-server/src/response.rs:16-22. -/
structure ResponseError where
  code : Int32
  message : String
  data : Option Value
deriving DecidableEq

/-- bsp-server/src/response.rs:4-14. -/
structure Response where
  id : RequestId
  result : Option Value
  error : Option ResponseError
deriving DecidableEq

namespace ResponseError
/-- Wire names. response.rs:17-21. -/
def fields : List String := ["code", "message", "data"]
/-- Derived `Serialize`. response.rs:16-22. -/
def enc (x : ResponseError) : Json :=
  .obj (fld "code" (encI32 x.code) ++ fld "message" (.str x.message)
    ++ skipNone "data" Value.json x.data)
/-- Derived `Deserialize`. response.rs:16-22. -/
def dec (j : Json) : Option ResponseError := do
  let s ← structSrc fields j
  let code ← s.req 0 "code" decI32
  let message ← s.req 1 "message" decStr
  let data ← s.opt 2 "data" decValue
  return { code, message, data }
/-- What is left after the wire (consequence of response.rs:20-21). -/
def norm (x : ResponseError) : ResponseError := { x with data := normData x.data }
end ResponseError

namespace Response
/-- Wire names. response.rs:5-13. -/
def fields : List String := ["id", "result", "error"]
/-- Derived `Serialize`, as members (the struct is flattened into `JsonRpc`).
response.rs:4-14. -/
def members (x : Response) : Members :=
  fld "id" x.id.enc ++ skipNone "result" Value.json x.result
    ++ skipNone "error" ResponseError.enc x.error
/-- Derived `Deserialize`. response.rs:4-14. -/
def dec (j : Json) : Option Response := do
  let s ← structSrc fields j
  let id ← s.req 0 "id" RequestId.dec
  let result ← s.opt 1 "result" decValue
  let error ← s.opt 2 "error" ResponseError.dec
  return { id, result, error }
/-- What is left after the wire (consequence of response.rs:10-13). -/
def norm (x : Response) : Response :=
  { x with result := normData x.result, error := x.error.map ResponseError.norm }

/-- `Response::ok`; the argument is the tree of `serde_json::to_value(result)`.
response.rs:25-31. -/
def ok (id : RequestId) (result : Value) : Response :=
  { id, result := some result, error := none }
/-- `Response::err`. response.rs:33-44. -/
def err (id : RequestId) (code : Int32) (message : String) : Response :=
  { id, result := none, error := some { code, message, data := none } }
/-- response.rs:46-48. -/
def parseError (id : RequestId) (m : String) := err id ErrorCode.parseError.code m
/-- response.rs:50-52. -/
def serverNotInitialized (id : RequestId) (m : String) := err id ErrorCode.serverNotInitialized.code m
/-- response.rs:54-56. -/
def invalidRequest (id : RequestId) (m : String) := err id ErrorCode.invalidRequest.code m
/-- response.rs:58-60. -/
def methodNotFound (id : RequestId) (m : String) := err id ErrorCode.methodNotFound.code m
/-- response.rs:62-64. -/
def invalidParams (id : RequestId) (m : String) := err id ErrorCode.invalidParams.code m
/-- response.rs:66-68. -/
def internalError (id : RequestId) (m : String) := err id ErrorCode.internalError.code m
/-- response.rs:70-72. -/
def serverErrorStart (id : RequestId) (m : String) := err id ErrorCode.serverErrorStart.code m
/-- response.rs:74-76. -/
def serverErrorEnd (id : RequestId) (m : String) := err id ErrorCode.serverErrorEnd.code m
/-- response.rs:78-80. -/
def requestCanceled (id : RequestId) (m : String) := err id ErrorCode.requestCanceled.code m
/-- response.rs:82-84. -/
def contentModified (id : RequestId) (m : String) := err id ErrorCode.contentModified.code m
/-- response.rs:86-88. -/
def serverCanceled (id : RequestId) (m : String) := err id ErrorCode.serverCancelled.code m
end Response

/-! ### Requests -/

/-- bsp-server/src/request.rs:17-52. -/
inductive Request [Ext] where
  | initializeBuild (id : RequestId) (p : InitializeBuild)
  | shutdown (id : RequestId)
  | workspaceBuildTargets (id : RequestId)
  | workspaceReload (id : RequestId)
  | buildTargetDependencyModules (id : RequestId) (p : BuildTargetDependencyModules)
  | debugSessionStart (id : RequestId) (p : DebugSessionStart)
  | buildTargetSources (id : RequestId) (p : BuildTargetSources)
  | textDocumentInverseSources (id : RequestId) (p : TextDocumentInverseSources)
  | buildTargetDependencySources (id : RequestId) (p : BuildTargetDependencySources)
  | buildTargetResources (id : RequestId) (p : BuildTargetResources)
  | buildTargetRun (id : RequestId) (p : BuildTargetRun)
  | buildTargetCompile (id : RequestId) (p : BuildTargetCompile)
  | buildTargetTest (id : RequestId) (p : BuildTargetTest)
  | buildTargetCleanCache (id : RequestId) (p : BuildTargetCleanCache)
  | custom (id : RequestId) (method : String) (params : Value)

namespace Request
variable [Ext]

/-- `Request::method`. request.rs:56-75. -/
def method : Request → String
  | .initializeBuild _ _ => "build/initialize"
  | .shutdown _ => "build/shutdown"
  | .workspaceBuildTargets _ => "workspace/buildTargets"
  | .workspaceReload _ => "workspace/reload"
  | .buildTargetDependencyModules _ _ => "buildTarget/dependencyModules"
  | .debugSessionStart _ _ => "debugSession/start"
  | .buildTargetSources _ _ => "buildTarget/sources"
  | .textDocumentInverseSources _ _ => "textDocument/inverseSources"
  | .buildTargetDependencySources _ _ => "buildTarget/dependencySources"
  | .buildTargetResources _ _ => "buildTarget/resources"
  | .buildTargetRun _ _ => "buildTarget/run"
  | .buildTargetCompile _ _ => "buildTarget/compile"
  | .buildTargetTest _ _ => "buildTarget/test"
  | .buildTargetCleanCache _ _ => "buildTarget/cleanCache"
  | .custom _ m _ => m

/-- `Request::id`. request.rs:78-97. -/
def id : Request → RequestId
  | .initializeBuild id _ => id
  | .shutdown id => id
  | .workspaceBuildTargets id => id
  | .workspaceReload id => id
  | .buildTargetDependencyModules id _ => id
  | .debugSessionStart id _ => id
  | .buildTargetSources id _ => id
  | .textDocumentInverseSources id _ => id
  | .buildTargetDependencySources id _ => id
  | .buildTargetResources id _ => id
  | .buildTargetRun id _ => id
  | .buildTargetCompile id _ => id
  | .buildTargetTest id _ => id
  | .buildTargetCleanCache id _ => id
  | .custom id _ _ => id

/-- `Request::params`.  Line 115 binds the *method* of a custom request to the name `params`.
request.rs:100-119. -/
def params : Request → Value
  | .shutdown _ => .null
  | .workspaceBuildTargets _ => .null
  | .workspaceReload _ => .null
  | .initializeBuild _ p => .ofJson p.enc
  | .buildTargetDependencyModules _ p => .ofJson p.enc
  | .debugSessionStart _ p => .ofJson p.enc
  | .buildTargetSources _ p => .ofJson p.enc
  | .textDocumentInverseSources _ p => .ofJson p.enc
  | .buildTargetDependencySources _ p => .ofJson p.enc
  | .buildTargetResources _ p => .ofJson p.enc
  | .buildTargetRun _ p => .ofJson p.enc
  | .buildTargetCompile _ p => .ofJson p.enc
  | .buildTargetTest _ p => .ofJson p.enc
  | .buildTargetCleanCache _ p => .ofJson p.enc
  | .custom _ m _ => .ofJson (.str m)

/-- `Serialize for Request`, as members. request.rs:205-285. -/
def members (r : Request) : Members :=
  let method := r.method
  match r with
  | .initializeBuild id p => [("id", id.enc), ("method", .str method), ("params", p.enc)]
  | .shutdown id => [("id", id.enc), ("method", .str method)]
  | .workspaceBuildTargets id => [("id", id.enc), ("method", .str method)]
  | .workspaceReload id => [("id", id.enc), ("method", .str method)]
  | .buildTargetDependencyModules id p => [("id", id.enc), ("method", .str method), ("params", p.enc)]
  | .debugSessionStart id p => [("id", id.enc), ("method", .str method), ("params", p.enc)]
  | .buildTargetSources id p => [("id", id.enc), ("method", .str method), ("params", p.enc)]
  | .textDocumentInverseSources id p => [("id", id.enc), ("method", .str method), ("params", p.enc)]
  | .buildTargetDependencySources id p => [("id", id.enc), ("method", .str method), ("params", p.enc)]
  | .buildTargetResources id p => [("id", id.enc), ("method", .str method), ("params", p.enc)]
  | .buildTargetRun id p => [("id", id.enc), ("method", .str method), ("params", p.enc)]
  | .buildTargetCompile id p => [("id", id.enc), ("method", .str method), ("params", p.enc)]
  | .buildTargetTest id p => [("id", id.enc), ("method", .str method), ("params", p.enc)]
  | .buildTargetCleanCache id p => [("id", id.enc), ("method", .str method), ("params", p.enc)]
  | .custom id _ v =>
    [("id", id.enc), ("method", .str method)] ++ (if !v.isNull then [("params", v.json)] else [])

/-- The three locals of `visit_map`. request.rs:394-396. -/
structure Acc where
  id : Option Value
  method : Option String
  params : Option Value

/-- How `visit_map` is driven: from a buffered tree (`Content`, as in `Message::deserialize`, or
`Value`), or directly from JSON text (`serde_json::from_str::<Request>`).
The former under bsp-server/src/message.rs:7-13, the latter for a direct call of request.rs:337-469. -/
inductive Mode where
  | buffered
  | streaming
deriving DecidableEq

/-- The `while let Some(key)` loop of `visit_map`.  For an unknown key the value is not consumed
(request.rs:418): a buffered map access drops it at the next key; the text deserialiser then finds
`:` where it expects `,` or `}` and fails. request.rs:398-420. -/
def visitLoop (mode : Mode) : Members → Acc → Option Acc
  | [], a => some a
  | (k, v) :: ms, a =>
    if k = "id" then
      if a.id.isSome then none
      else visitLoop mode ms { a with id := some (Value.ofJson v) }
    else if k = "params" then
      if a.params.isSome then none
      else visitLoop mode ms { a with params := some (Value.ofJson v) }
    else if k = "method" then
      if a.method.isSome then none
      else match decStr v with
        | some s => visitLoop mode ms { a with method := some s }
        | none => none
    else match mode with
      | .buffered => visitLoop mode ms a
      | .streaming => none

/-- The final match on the method. request.rs:441-463. -/
def ofMethod (id : RequestId) (method : String) (params : Value) : Option Request :=
  if method = "build/initialize" then (InitializeBuild.dec params.json).map (.initializeBuild id)
  else if method = "build/shutdown" then some (.shutdown id)
  else if method = "workspace/buildTargets" then some (.workspaceBuildTargets id)
  else if method = "workspace/reload" then some (.workspaceReload id)
  else if method = "buildTarget/dependencyModules" then
    (BuildTargetDependencyModules.dec params.json).map (.buildTargetDependencyModules id)
  else if method = "debugSession/start" then
    (DebugSessionStart.dec params.json).map (.debugSessionStart id)
  else if method = "buildTarget/sources" then
    (BuildTargetSources.dec params.json).map (.buildTargetSources id)
  else if method = "textDocument/inverseSources" then
    (TextDocumentInverseSources.dec params.json).map (.textDocumentInverseSources id)
  else if method = "buildTarget/dependencySources" then
    (BuildTargetDependencySources.dec params.json).map (.buildTargetDependencySources id)
  else if method = "buildTarget/resources" then
    (BuildTargetResources.dec params.json).map (.buildTargetResources id)
  else if method = "buildTarget/run" then (BuildTargetRun.dec params.json).map (.buildTargetRun id)
  else if method = "buildTarget/compile" then
    (BuildTargetCompile.dec params.json).map (.buildTargetCompile id)
  else if method = "buildTarget/test" then (BuildTargetTest.dec params.json).map (.buildTargetTest id)
  else if method = "buildTarget/cleanCache" then
    (BuildTargetCleanCache.dec params.json).map (.buildTargetCleanCache id)
  else some (.custom id method params)

/-- The part of `visit_map` after the loop.  The condition of lines 431-433 is a disjunction of
inequalities, hence always true. request.rs:426-463. -/
def finish (a : Acc) : Option Request := do
  let method ← a.method
  let id ← a.id
  let id ← RequestId.dec id.json
  let params ← match a.params with
    | some v => some v
    | none =>
      if method ≠ "build/shutdown" ∨ method ≠ "workspace/buildTargets" ∨ method ≠ "workspace/reload"
      then none
      else some Value.null
  ofMethod id method params

/-- `Deserialize for Request` (`deserialize_struct` with a visitor that has only `visit_map`).
request.rs:337-469. -/
def decMode (mode : Mode) : Json → Option Request
  | .obj ms => (visitLoop mode ms ⟨none, none, none⟩).bind finish
  | _ => none

/-- Decoding as done by `Message`. request.rs:337-469, message.rs:7-13. -/
def dec (j : Json) : Option Request := decMode .buffered j

end Request

/-! ### Notifications -/

/-- bsp-server/src/notification.rs:16-28. -/
inductive Notification [Ext] where
  | exit
  | initialized
  | showMessage (p : ShowMessage)
  | logMessage (p : LogMessage)
  | publishDiagnostics (p : PublishDiagnostics)
  | taskStart (p : TaskStart)
  | taskFinish (p : TaskFinish)
  | taskProgress (p : TaskProgress)
  | buildTargetDidChange (p : BuildTargetDidChange)
  | custom (method : String) (params : Value)

namespace Notification
variable [Ext]

/-- `Notification::method`. notification.rs:31-45. -/
def method : Notification → String
  | .exit => "build/exit"
  | .initialized => "build/initialized"
  | .showMessage _ => "build/showMessage"
  | .logMessage _ => "build/logMessage"
  | .publishDiagnostics _ => "build/publishDiagnostics"
  | .taskStart _ => "build/taskStart"
  | .taskFinish _ => "build/taskFinish"
  | .taskProgress _ => "build/taskProgressing"
  | .buildTargetDidChange _ => "buildTarget/didChange"
  | .custom m _ => m

/-- `Serialize for Notification`, as members. notification.rs:99-122. -/
def members (n : Notification) : Members :=
  ("method", .str n.method) :: match n with
  | .exit => []
  | .initialized => []
  | .showMessage p => [("params", p.enc)]
  | .logMessage p => [("params", p.enc)]
  | .publishDiagnostics p => [("params", p.enc)]
  | .taskStart p => [("params", p.enc)]
  | .taskFinish p => [("params", p.enc)]
  | .taskProgress p => [("params", p.enc)]
  | .buildTargetDidChange p => [("params", p.enc)]
  | .custom _ v => [("params", v.json)]

/-- The two locals of `visit_map`. notification.rs:214-215. -/
structure Acc where
  method : Option String
  params : Option Value

/-- The loop of `visit_map`. notification.rs:216-232. -/
def visitLoop (mode : Request.Mode) : Members → Acc → Option Acc
  | [], a => some a
  | (k, v) :: ms, a =>
    if k = "params" then
      if a.params.isSome then none
      else visitLoop mode ms { a with params := some (Value.ofJson v) }
    else if k = "method" then
      if a.method.isSome then none
      else match decStr v with
        | some s => visitLoop mode ms { a with method := some s }
        | none => none
    else match mode with
      | .buffered => visitLoop mode ms a
      | .streaming => none

/-- The final match on the method. notification.rs:250-261. -/
def ofMethod (method : String) (params : Value) : Option Notification :=
  if method = "build/exit" then some .exit
  else if method = "build/initialized" then some .initialized
  else if method = "build/showMessage" then (ShowMessage.dec params.json).map .showMessage
  else if method = "build/logMessage" then (LogMessage.dec params.json).map .logMessage
  else if method = "build/publishDiagnostics" then
    (PublishDiagnostics.dec params.json).map .publishDiagnostics
  else if method = "build/taskStart" then (TaskStart.dec params.json).map .taskStart
  else if method = "build/taskFinish" then (TaskFinish.dec params.json).map .taskFinish
  else if method = "build/taskProgressing" then (TaskProgress.dec params.json).map .taskProgress
  else if method = "buildTarget/didChange" then
    (BuildTargetDidChange.dec params.json).map .buildTargetDidChange
  else some (.custom method params)

/-- The part of `visit_map` after the loop. notification.rs:234-261. -/
def finish (a : Acc) : Option Notification := do
  let method ← a.method
  let params ← match a.params with
    | some v => some v
    | none =>
      if method ≠ "build/exit" ∧ method ≠ "build/initialized" then none else some Value.null
  ofMethod method params

/-- `Deserialize for Notification`. notification.rs:159-267. -/
def decMode (mode : Request.Mode) : Json → Option Notification
  | .obj ms => (visitLoop mode ms ⟨none, none⟩).bind finish
  | _ => none

/-- Decoding as done by `Message`. notification.rs:159-267, message.rs:7-13. -/
def dec (j : Json) : Option Notification := decMode .buffered j

/-- `From<&str> for Notification`; `none` is the panic of line 59. notification.rs:54-62. -/
def ofStr (s : String) : Option Notification :=
  if s = "build/exit" then some .exit
  else if s = "build/initialized" then some .initialized
  else none

end Notification

/-! ### Messages -/

/-- bsp-server/src/message.rs:7-13. -/
inductive Message [Ext] where
  | request (r : Request)
  | response (r : Response)
  | notification (n : Notification)

namespace Message
variable [Ext]

/-- Untagged `Serialize`, as members. message.rs:7-13. -/
def members : Message → Members
  | .request r => r.members
  | .response r => r.members
  | .notification n => n.members

/-- `Serialize for JsonRpc`: `"jsonrpc":"2.0"` followed by the flattened message.
message.rs:15-29. -/
def enc (m : Message) : Json := .obj (("jsonrpc", .str "2.0") :: m.members)

/-- Untagged `Deserialize`: the variants are tried in declaration order on the buffered tree.
message.rs:7-13. -/
def dec (j : Json) : Option Message :=
  match Request.dec j with
  | some r => some (.request r)
  | none => match Response.dec j with
    | some r => some (.response r)
    | none => match Notification.dec j with
      | some n => some (.notification n)
      | none => none

end Message

end Bsp
