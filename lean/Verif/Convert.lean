/-
The `From` conversions into requests, notifications and messages.
-/
import Verif.Message
import Verif.Payload

namespace Bsp
open Json

/-- The types listed in `convertible!` of request.rs:156-166. -/
inductive ReqPayload where
  | cleanCache | compile | dependencyModules | dependencySources | resources | run | sources | test
  | debug | initialize | inverseSources
deriving DecidableEq, Repr

/-- The payload type of each. request.rs:156-166. -/
@[reducible] def ReqPayload.payload : ReqPayload → Payload
  | .cleanCache => .buildTargetCleanCache
  | .compile => .buildTargetCompile
  | .dependencyModules => .buildTargetDependencyModules
  | .dependencySources => .buildTargetDependencySources
  | .resources => .buildTargetResources
  | .run => .buildTargetRun
  | .sources => .buildTargetSources
  | .test => .buildTargetTest
  | .debug => .debugSessionStart
  | .initialize => .initializeBuild
  | .inverseSources => .textDocumentInverseSources

/-- `From<(RequestId, P)> for Request`. request.rs:140-166. -/
def Request.ofPayload [Ext] : (k : ReqPayload) → RequestId → k.payload.Carrier → Request
  | .cleanCache, id, x => .buildTargetCleanCache id x
  | .compile, id, x => .buildTargetCompile id x
  | .dependencyModules, id, x => .buildTargetDependencyModules id x
  | .dependencySources, id, x => .buildTargetDependencySources id x
  | .resources, id, x => .buildTargetResources id x
  | .run, id, x => .buildTargetRun id x
  | .sources, id, x => .buildTargetSources id x
  | .test, id, x => .buildTargetTest id x
  | .debug, id, x => .debugSessionStart id x
  | .initialize, id, x => .initializeBuild id x
  | .inverseSources, id, x => .textDocumentInverseSources id x

/-- `From<(RequestId, P)> for Message`. request.rs:148-152. -/
def Message.ofRequestPayload [Ext] (k : ReqPayload) (id : RequestId) (x : k.payload.Carrier) : Message :=
  .request (Request.ofPayload k id x)

/-- `From<(RequestId, &str, Value)> for Request` and `for Message`. request.rs:128-138. -/
def Message.ofCustomRequest [Ext] (id : RequestId) (m : String) (v : Value) : Message :=
  .request (.custom id m v)

/-- The types listed in `convertible!` of notification.rs:91-97. -/
inductive NotPayload where
  | showMessage | logMessage | publishDiagnostics | taskStart | taskFinish | taskProgress | didChange
deriving DecidableEq, Repr

/-- The payload type of each. notification.rs:91-97. -/
@[reducible] def NotPayload.payload : NotPayload → Payload
  | .showMessage => .showMessage
  | .logMessage => .logMessage
  | .publishDiagnostics => .publishDiagnostics
  | .taskStart => .taskStart
  | .taskFinish => .taskFinish
  | .taskProgress => .taskProgress
  | .didChange => .buildTargetDidChange

/-- `From<P> for Notification`. notification.rs:76-97. -/
def Notification.ofPayload [Ext] : (k : NotPayload) → k.payload.Carrier → Notification
  | .showMessage, x => .showMessage x
  | .logMessage, x => .logMessage x
  | .publishDiagnostics, x => .publishDiagnostics x
  | .taskStart, x => .taskStart x
  | .taskFinish, x => .taskFinish x
  | .taskProgress, x => .taskProgress x
  | .didChange, x => .buildTargetDidChange x

/-- `From<P> for Message`. notification.rs:83-87. -/
def Message.ofNotificationPayload [Ext] (k : NotPayload) (x : k.payload.Carrier) : Message :=
  .notification (Notification.ofPayload k x)

/-- `From<(&str, Value)> for Notification` and `for Message`. notification.rs:48-52, 70-74. -/
def Message.ofCustomNotification [Ext] (m : String) (v : Value) : Message :=
  .notification (.custom m v)

/-- The payload types listed in `convertible!` of response.rs:113-125, plus `String` (97-101) and
`Value` (115). -/
inductive ResPayload where
  | initialize | workspaceBuildTargets | debug | sources | test | run | compile | resources
  | dependencyModules | cleanCache | inverseSources | dependencySources
deriving DecidableEq, Repr

/-- The payload type of each. response.rs:113-125. -/
@[reducible] def ResPayload.payload : ResPayload → Payload
  | .initialize => .initializeBuildResult
  | .workspaceBuildTargets => .workspaceBuildTargetsResult
  | .debug => .debugSessionStartResult
  | .sources => .buildTargetSourcesResult
  | .test => .buildTargetTestResult
  | .run => .buildTargetRunResult
  | .compile => .buildTargetCompileResult
  | .resources => .buildTargetResourcesResult
  | .dependencyModules => .buildTargetDependencyModulesResult
  | .cleanCache => .buildTargetCleanCacheResult
  | .inverseSources => .buildTargetInverseSourcesResult
  | .dependencySources => .buildTargetDependencySourcesResult

/-- `From<(RequestId, R)> for Message`: `Response::ok`, which converts to a `Value`.
response.rs:25-31, 103-125. -/
def Message.ofResult [Ext] (k : ResPayload) (id : RequestId) (x : k.payload.Carrier) : Message :=
  .response (Response.ok id (Value.ofJson (k.payload.enc x)))

/-- `From<(RequestId, String)> for Message`. response.rs:97-101. -/
def Message.ofStringResult [Ext] (id : RequestId) (s : String) : Message :=
  .response (Response.ok id (Value.ofJson (.str s)))

/-- `From<(RequestId, Value)> for Message`. response.rs:115. -/
def Message.ofValueResult [Ext] (id : RequestId) (v : Value) : Message :=
  .response (Response.ok id v)

end Bsp
