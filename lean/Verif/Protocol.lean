/-
The messages of the Build Server Protocol 2.0 as its published specification has them, independently of
the code: a small language of interfaces, which trees have an interface, and the table of the interfaces.
README.md:4 and bsp-types/README.md:5-7 say that the types of bsp-types are those of that specification.
The specification is not part of /repo; the table is written down from it, and repeats the doc comments of
bsp-types/src where these quote it.
-/
import Verif.SchemaTable

namespace Bsp
namespace Protocol
open Json Spec

mutual
/-- The types of the specification of the protocol (cited in bsp-types/README.md:5-7). -/
inductive Shape where
  | str
  | bool
  /-- integers from `lo` up to but not including `hi` -/
  | int (lo hi : Int)
  /-- an enumeration -/
  | code (cs : List Int)
  | uri
  | any
  | null
  /-- `Integer | String` -/
  | intOrStr
  | list (s : Shape)
  | obj (ps : Parts)
/-- The properties of an interface: name, whether it is required, type.
Of the specification of the protocol (cited in bsp-types/README.md:5-7). -/
inductive Parts where
  | nil
  | cons (name : String) (required : Bool) (s : Shape) (rest : Parts)
end

mutual
/-- Whether a tree has a type.  An object has every required property, any other property of the interface is either
absent or has its type (null is not the same as absent), no property of the interface occurs twice, and there may be
further ones.  Of the specification of the protocol (cited in bsp-types/README.md:5-7). -/
def Matches [Ext] : Shape → Json → Prop
  | .str, j => ∃ s, j = .str s
  | .bool, j => ∃ b, j = .bool b
  | .int lo hi, j => ∃ i, j = .int i ∧ lo ≤ i ∧ i < hi
  | .code cs, j => ∃ i ∈ cs, j = .int i
  | .uri, j => ∃ s u, j = .str s ∧ Ext.parseUrl s = some u
  | .any, _ => True
  | .null, j => j = .null
  | .intOrStr, j => (∃ s, j = .str s) ∨ ∃ i, j = .int i ∧ -2 ^ 31 ≤ i ∧ i < 2 ^ 31
  | .list s, j => ∃ xs, j = .arr xs ∧ ∀ x ∈ xs, Matches s x
  | .obj ps, j => ∃ ms, j = .obj ms ∧ HasAll ps ms
/-- The properties of an interface are there.
Of the specification of the protocol (cited in bsp-types/README.md:5-7). -/
def HasAll [Ext] : Parts → Members → Prop
  | .nil, _ => True
  | .cons k r s ps, ms => ((k ∉ keys ms ∧ r = false) ∨ ∃ j, Spec.Once k ms j ∧ Matches s j) ∧ HasAll ps ms
end

/-! ### The interfaces -/

/-- `Long`. Of the specification of the protocol, for bsp-types/src/task/progress.rs:14-28. -/
def long : Shape := .int (-2 ^ 63) (2 ^ 63)

/-- `Integer`. Of the specification of the protocol, for bsp-types/src/publish_diagnostics.rs:22. -/
def integer : Shape := .int (-2 ^ 31) (2 ^ 31)

/-- `string[]`. Of the specification of the protocol, for bsp-types/src/client_capabilities.rs:10. -/
def strings : Shape := .list .str

/-- `BuildTargetIdentifier`. Of the specification of the protocol, for bsp-types/src/bt_identifier.rs:4-7. -/
def identifier : Shape := .obj <| .cons "uri" true .uri .nil

/-- `TextDocumentIdentifier`. Of the specification of the protocol, for bsp-types/src/bt_inverse_sources.rs:13. -/
def textDocument : Shape := .obj <| .cons "uri" true .uri .nil

/-- `BuildClientCapabilities`. Of the specification of the protocol, for bsp-types/src/client_capabilities.rs:3-11. -/
def clientCapabilities : Shape := .obj <| .cons "languageIds" true strings .nil

/-- `InitializeBuildParams`. Of the specification of the protocol, for bsp-types/src/initialize_params.rs:8-39. -/
def initializeBuildParams : Shape := .obj <|
  .cons "displayName" true .str <|
  .cons "version" true .str <|
  .cons "bspVersion" true .str <|
  .cons "rootUri" true .uri <|
  .cons "capabilities" true clientCapabilities <|
  .cons "data" false .any .nil

/-- `SourcesParams`, `DependencySourcesParams`, `DependencyModulesParams`, `ResourcesParams`, `CleanCacheParams`.
Of the specification of the protocol, for bsp-types/src/bt_sources.rs:5-12, bt_dependency_sources.rs:13-17,
bt_dependency_modules.rs:8-12, bt_resources.rs:11-14, bt_clean_cache.rs:13-17. -/
def targetsParams : Shape := .obj <| .cons "targets" true (.list identifier) .nil

/-- `InverseSourcesParams`. Of the specification of the protocol, for bsp-types/src/bt_inverse_sources.rs:10-14. -/
def inverseSourcesParams : Shape := .obj <| .cons "textDocument" true textDocument .nil

/-- `CompileParams`. Of the specification of the protocol, for bsp-types/src/bt_compile.rs:7-21. -/
def compileParams : Shape := .obj <|
  .cons "targets" true (.list identifier) <|
  .cons "originId" false .str <|
  .cons "arguments" false strings .nil

/-- `TestParams`. Of the specification of the protocol, for bsp-types/src/bt_test.rs:8-31. -/
def testParams : Shape := .obj <|
  .cons "targets" true (.list identifier) <|
  .cons "originId" false .str <|
  .cons "arguments" false strings <|
  .cons "dataKind" false .str <|
  .cons "data" false .any .nil

/-- `RunParams`. Of the specification of the protocol, for bsp-types/src/bt_run.rs:7-30. -/
def runParams : Shape := .obj <|
  .cons "target" true identifier <|
  .cons "originId" false .str <|
  .cons "arguments" false strings <|
  .cons "dataKind" false .str <|
  .cons "data" false .any .nil

/-- `DebugSessionParams`. Of the specification of the protocol, for bsp-types/src/debug_session_start.rs:8-22. -/
def debugSessionParams : Shape := .obj <|
  .cons "targets" true (.list identifier) <|
  .cons "dataKind" true .str <|
  .cons "data" true .any .nil

/-- `TaskId`. Of the specification of the protocol, for bsp-types/src/task/id.rs:3-18. -/
def taskId : Shape := .obj <|
  .cons "id" true .str <|
  .cons "parents" false strings .nil

/-- `ShowMessageParams` and `LogMessageParams`.
Of the specification of the protocol, for bsp-types/src/show_message.rs:13-30, log_message.rs:13-30. -/
def messageParams : Shape := .obj <|
  .cons "type" true (.code [1, 2, 3, 4]) <|
  .cons "task" false taskId <|
  .cons "originId" false .str <|
  .cons "message" true .str .nil

/-- `Position`. Of the specification of the protocol, for bsp-types/src/publish_diagnostics.rs:22. -/
def position : Shape := .obj <|
  .cons "line" true (.int 0 (2 ^ 31)) <|
  .cons "character" true (.int 0 (2 ^ 31)) .nil

/-- `Range`. Of the specification of the protocol, for bsp-types/src/publish_diagnostics.rs:22. -/
def range : Shape := .obj <|
  .cons "start" true position <|
  .cons "end" true position .nil

/-- `CodeDescription`. Of the specification of the protocol, for bsp-types/src/publish_diagnostics.rs:22. -/
def codeDescription : Shape := .obj <| .cons "href" true .uri .nil

/-- `DiagnosticRelatedInformation`.
Of the specification of the protocol, for bsp-types/src/publish_diagnostics.rs:22. -/
def relatedInformation : Shape := .obj <|
  .cons "location" true (.obj <| .cons "uri" true .uri <| .cons "range" true range .nil) <|
  .cons "message" true .str .nil

/-- `Diagnostic`. Of the specification of the protocol, for bsp-types/src/publish_diagnostics.rs:22. -/
def diagnostic : Shape := .obj <|
  .cons "range" true range <|
  .cons "severity" false (.code [1, 2, 3, 4]) <|
  .cons "code" false .intOrStr <|
  .cons "codeDescription" false codeDescription <|
  .cons "source" false .str <|
  .cons "message" true .str <|
  .cons "tags" false (.list (.code [1, 2])) <|
  .cons "relatedInformation" false (.list relatedInformation) <|
  .cons "data" false .any .nil

/-- `PublishDiagnosticsParams`.
Of the specification of the protocol, for bsp-types/src/publish_diagnostics.rs:6-27. -/
def publishDiagnosticsParams : Shape := .obj <|
  .cons "textDocument" true textDocument <|
  .cons "buildTarget" true identifier <|
  .cons "originId" false .str <|
  .cons "diagnostics" true (.list diagnostic) <|
  .cons "reset" true .bool .nil

/-- `TaskStartParams`, the time being of type `t`.
Of the specification of the protocol, for bsp-types/src/task/start.rs:6-30. -/
def taskStartWith (t : Shape) : Shape := .obj <|
  .cons "taskId" true taskId <|
  .cons "eventTime" false t <|
  .cons "message" false .str <|
  .cons "dataKind" false .str <|
  .cons "data" false .any .nil

/-- `TaskProgressParams`, numbers being of type `t`.
Of the specification of the protocol, for bsp-types/src/task/progress.rs:7-41. -/
def taskProgressWith (t : Shape) : Shape := .obj <|
  .cons "taskId" true taskId <|
  .cons "eventTime" false t <|
  .cons "message" false .str <|
  .cons "total" false t <|
  .cons "progress" false t <|
  .cons "unit" false .str <|
  .cons "dataKind" false .str <|
  .cons "data" false .any .nil

/-- `TaskFinishParams`, the time being of type `t`.
Of the specification of the protocol, for bsp-types/src/task/finish.rs:7-34. -/
def taskFinishWith (t : Shape) : Shape := .obj <|
  .cons "taskId" true taskId <|
  .cons "eventTime" false t <|
  .cons "message" false .str <|
  .cons "status" true (.code [1, 2, 3]) <|
  .cons "dataKind" false .str <|
  .cons "data" false .any .nil

/-- `DidChangeBuildTarget`. Of the specification of the protocol, for bsp-types/src/bt_did_change.rs:7-26. -/
def didChange : Shape := .obj <|
  .cons "changes" true (.list <| .obj <|
    .cons "target" true identifier <|
    .cons "kind" false (.code [1, 2, 3]) <|
    .cons "data" false .any .nil) .nil

/-- A provider, `{ languageIds: string[] }`. Of the specification of the protocol, for bsp-types/src/providers.rs:3-25. -/
def provider : Shape := .obj <| .cons "languageIds" true strings .nil

/-- `InitializeBuildResult`. Of the specification of the protocol, for bsp-types/src/initialize_result.rs:6-20,
server_capabilities.rs:5-57. -/
def initializeBuildResult : Shape := .obj <|
  .cons "displayName" true .str <|
  .cons "version" true .str <|
  .cons "bspVersion" true .str <|
  .cons "capabilities" true (.obj <|
    .cons "compileProvider" false provider <|
    .cons "testProvider" false provider <|
    .cons "runProvider" false provider <|
    .cons "debugProvider" false provider <|
    .cons "inverseSourcesProvider" false .bool <|
    .cons "dependencySourcesProvider" false .bool <|
    .cons "dependencyModulesProvider" false .bool <|
    .cons "resourcesProvider" false .bool <|
    .cons "canReload" false .bool <|
    .cons "buildTargetChangedProvider" false .bool .nil) <|
  .cons "data" false .any .nil

/-- `BuildTargetCapabilities`. Of the specification of the protocol, for bsp-types/src/bt_capabilities.rs:4-18. -/
def targetCapabilities : Shape := .obj <|
  .cons "canCompile" true .bool <|
  .cons "canTest" true .bool <|
  .cons "canRun" true .bool <|
  .cons "canDebug" true .bool .nil

/-- `BuildTarget`. Of the specification of the protocol, for bsp-types/src/workspace_build_targets.rs:15-54. -/
def buildTarget : Shape := .obj <|
  .cons "id" true identifier <|
  .cons "displayName" false .str <|
  .cons "baseDirectory" false .uri <|
  .cons "tags" true strings <|
  .cons "capabilities" true targetCapabilities <|
  .cons "languageIds" true strings <|
  .cons "dependencies" true (.list identifier) <|
  .cons "dataKind" false .str <|
  .cons "data" false .any .nil

/-- `WorkspaceBuildTargetsResult`.
Of the specification of the protocol, for bsp-types/src/workspace_build_targets.rs:9-12. -/
def buildTargetsResult : Shape := .obj <| .cons "targets" true (.list buildTarget) .nil

/-- `SourcesResult`. Of the specification of the protocol, for bsp-types/src/bt_sources.rs:30-98. -/
def sourcesResult : Shape := .obj <|
  .cons "items" true (.list <| .obj <|
    .cons "target" true identifier <|
    .cons "sources" true (.list <| .obj <|
      .cons "uri" true .uri <|
      .cons "kind" true (.code [1, 2]) <|
      .cons "generated" true .bool .nil) <|
    .cons "roots" false (.list .uri) .nil) .nil

/-- `InverseSourcesResult`. Of the specification of the protocol, for bsp-types/src/bt_inverse_sources.rs:32-35. -/
def inverseSourcesResult : Shape := .obj <| .cons "targets" true (.list identifier) .nil

/-- `DependencySourcesResult`.
Of the specification of the protocol, for bsp-types/src/bt_dependency_sources.rs:35-47. -/
def dependencySourcesResult : Shape := .obj <|
  .cons "items" true (.list <| .obj <|
    .cons "target" true identifier <|
    .cons "sources" true (.list .uri) .nil) .nil

/-- `DependencyModulesResult`.
Of the specification of the protocol, for bsp-types/src/bt_dependency_modules.rs:35-98. -/
def dependencyModulesResult : Shape := .obj <|
  .cons "items" true (.list <| .obj <|
    .cons "target" true identifier <|
    .cons "modules" true (.list <| .obj <|
      .cons "name" true .str <|
      .cons "version" true .str <|
      .cons "dataKind" false .str <|
      .cons "data" false .any .nil) .nil) .nil

/-- `ResourcesResult`. Of the specification of the protocol, for bsp-types/src/bt_resources.rs:37-63. -/
def resourcesResult : Shape := .obj <|
  .cons "items" true (.list <| .obj <|
    .cons "target" true identifier <|
    .cons "resources" true (.list .uri) .nil) .nil

/-- `CompileResult` and `TestResult`.
Of the specification of the protocol, for bsp-types/src/bt_compile.rs:75-93, bt_test.rs:111-129. -/
def compileResult : Shape := .obj <|
  .cons "originId" false .str <|
  .cons "statusCode" true (.code [1, 2, 3]) <|
  .cons "dataKind" false .str <|
  .cons "data" false .any .nil

/-- `RunResult`. Of the specification of the protocol, for bsp-types/src/bt_run.rs:110-119. -/
def runResult : Shape := .obj <|
  .cons "originId" false .str <|
  .cons "statusCode" true (.code [1, 2, 3]) .nil

/-- `CleanCacheResult`. Of the specification of the protocol, for bsp-types/src/bt_clean_cache.rs:40-47. -/
def cleanCacheResult : Shape := .obj <|
  .cons "message" false .str <|
  .cons "cleaned" true .bool .nil

/-- `DebugSessionAddress`. Of the specification of the protocol, for bsp-types/src/debug_session_start.rs:64-68. -/
def debugSessionAddress : Shape := .obj <| .cons "uri" true .uri .nil

/-! ### The methods -/

/-- The requests of the protocol and the type of their params.
Of the specification of the protocol, for bsp-server/src/request.rs:441-463. -/
def requests : List (String × Shape) :=
  [("build/initialize", initializeBuildParams),
   ("build/shutdown", .null),
   ("workspace/buildTargets", .null),
   ("workspace/reload", .null),
   ("buildTarget/sources", targetsParams),
   ("buildTarget/inverseSources", inverseSourcesParams),
   ("buildTarget/dependencySources", targetsParams),
   ("buildTarget/dependencyModules", targetsParams),
   ("buildTarget/resources", targetsParams),
   ("buildTarget/compile", compileParams),
   ("buildTarget/run", runParams),
   ("buildTarget/test", testParams),
   ("debugSession/start", debugSessionParams),
   ("buildTarget/cleanCache", targetsParams)]

/-- The notifications of the protocol and the type of their params.
Of the specification of the protocol, for bsp-server/src/notification.rs:250-261. -/
def notifications : List (String × Shape) :=
  [("build/initialized", .null),
   ("build/exit", .null),
   ("build/showMessage", messageParams),
   ("build/logMessage", messageParams),
   ("build/publishDiagnostics", publishDiagnosticsParams),
   ("buildTarget/didChange", didChange),
   ("build/taskStart", taskStartWith long),
   ("build/taskProgress", taskProgressWith long),
   ("build/taskFinish", taskFinishWith long)]

/-- The params of a message: of the type they have to be of; instead of null they can be absent.
Of the specification of the protocol, for bsp-server/src/request.rs:205-285, notification.rs:99-122. -/
def ParamsOk [Ext] (s : Shape) (ms : Members) : Prop :=
  (s = .null ∧ "params" ∉ keys ms) ∨ ∃ p, Spec.Once "params" ms p ∧ Matches s p

/-- `j` is a request of the protocol, of method `m`.
Of the specification of the protocol, for bsp-server/src/request.rs:205-285. -/
def IsRequest [Ext] (m : String) (j : Json) : Prop :=
  ∃ ms s, j = .obj ms ∧ Spec.Once "jsonrpc" ms (.str "2.0") ∧ (∃ i, Spec.Once "id" ms i ∧ Matches .intOrStr i) ∧
    Spec.Once "method" ms (.str m) ∧ (m, s) ∈ requests ∧ ParamsOk s ms ∧ "result" ∉ keys ms ∧ "error" ∉ keys ms

/-- `j` is a notification of the protocol, of method `m`.
Of the specification of the protocol, for bsp-server/src/notification.rs:99-122. -/
def IsNotification [Ext] (m : String) (j : Json) : Prop :=
  ∃ ms s, j = .obj ms ∧ Spec.Once "jsonrpc" ms (.str "2.0") ∧ "id" ∉ keys ms ∧
    Spec.Once "method" ms (.str m) ∧ (m, s) ∈ notifications ∧ ParamsOk s ms

/-- The types of the results.  Of the specification of the protocol; the type of the code for each is that
bsp-types/src/server.rs:17-186 gives. -/
def results : List (Payload × Shape) :=
  [(.initializeBuildResult, initializeBuildResult),
   (.workspaceBuildTargetsResult, buildTargetsResult),
   (.buildTargetSourcesResult, sourcesResult),
   (.buildTargetInverseSourcesResult, inverseSourcesResult),
   (.buildTargetDependencySourcesResult, dependencySourcesResult),
   (.buildTargetDependencyModulesResult, dependencyModulesResult),
   (.buildTargetResourcesResult, resourcesResult),
   (.buildTargetCompileResult, compileResult),
   (.buildTargetRunResult, runResult),
   (.buildTargetTestResult, compileResult),
   (.debugSessionStartResult, debugSessionAddress),
   (.buildTargetCleanCacheResult, cleanCacheResult)]

/-- What a diagnostic has to be like for it to be one of the protocol: the positions are in 31 bits, severity and tags are
among those there are.  For stating things about bsp-types/src/publish_diagnostics.rs:22. -/
def DiagnosticOk [Ext] (d : Diagnostic) : Prop :=
  (∀ r ∈ d.range :: (d.relatedInformation.getD []).map (·.location.range),
    r.start.line.toNat < 2 ^ 31 ∧ r.start.character.toNat < 2 ^ 31 ∧
    r.end_.line.toNat < 2 ^ 31 ∧ r.end_.character.toNat < 2 ^ 31) ∧
  (∀ c, d.severity = some c → c.toInt ∈ [1, 2, 3, 4]) ∧
  ∀ ts, d.tags = some ts → ∀ c ∈ ts, c.toInt ∈ [1, 2]

/-- Which of its requests the code writes as the protocol has them.
For stating things about bsp-server/src/request.rs:205-285. -/
def WrittenRight [Ext] : Request → Prop
  | .initializeBuild _ p => p.version ≠ "" ∧ p.bspVersion ≠ ""
  | .debugSessionStart _ p => p.data.json ≠ .null
  | .buildTargetRun _ p => p.arguments = none
  | .buildTargetCompile _ _ | .buildTargetTest _ _ | .buildTargetDependencySources _ _
  | .textDocumentInverseSources _ _ => False
  | .custom _ m v => ∃ s, (m, s) ∈ requests ∧ Matches s v.json
  | _ => True

/-- Which of its notifications the code writes as the protocol has them.
For stating things about bsp-server/src/notification.rs:99-122. -/
def NotifiedRight [Ext] : Notification → Prop
  | .publishDiagnostics p => p.originId ≠ none ∧ ∀ d ∈ p.diagnostics, DiagnosticOk d
  | .taskProgress _ => False
  | .custom m v => ∃ s, (m, s) ∈ notifications ∧ Matches s v.json
  | _ => True

/-- The member of this name. For stating things about messages (bsp-server/src/message.rs:7-29). -/
def Part (k : String) (j v : Json) : Prop := ∃ ms, j = .obj ms ∧ Spec.Once k ms v

/-- No member of this name. For stating things about messages (bsp-server/src/message.rs:7-29). -/
def Lacks (k : String) (j : Json) : Prop := ∃ ms, j = .obj ms ∧ k ∉ keys ms

/-! ### What has a type of the protocol conforms to a schema: a test -/

/-- The type of a property and whether it is required. About Verif/SchemaTable.lean (bsp-types/src/lib.rs:1-56). -/
def Parts.find (k : String) : Parts → Option (Bool × Shape)
  | .nil => none
  | .cons k' r s ps => if k = k' then some (r, s) else ps.find k

mutual
/-- A sufficient test for: every tree of the type conforms to the schema.
About Verif/SchemaTable.lean (bsp-types/src/lib.rs:1-56). -/
def accepts : Ty → Shape → Bool
  | .str, s => match s with
    | .str | .uri => true
    | _ => false
  | .bool, s => match s with
    | .bool => true
    | _ => false
  | .int lo hi, s => match s with
    | .int a b => decide (lo ≤ a) && decide (b ≤ hi)
    | .code cs => cs.all fun c => decide (lo ≤ c) && decide (c < hi)
    | _ => false
  | .codes ds, s => match s with
    | .code cs => cs.all ds.contains
    | _ => false
  | .url, s => match s with
    | .uri => true
    | _ => false
  | .any, _ => true
  | .kind, _ => true
  | .tag, _ => false
  | .numOrStr, s => match s with
    | .intOrStr => true
    | _ => false
  | .opt t, s => accepts t s
  | .list t, s => match s with
    | .list s => accepts t s
    | _ => false
  | .struct fs, s => match s with
    | .obj ps => acceptsAll fs ps
    | _ => false
/-- The same for the members of an object. About Verif/SchemaTable.lean (bsp-types/src/lib.rs:1-56). -/
def acceptsAll : Fields → Parts → Bool
  | .nil, _ => true
  | .cons k a _ t fs, ps => (match ps.find k with
    | some (r, s) => (r || (match a with
      | .required => false
      | _ => true)) && accepts t s
    | none => false) && acceptsAll fs ps
end

section
variable [Ext]

theorem HasAll.part {k : String} {r : Bool} {s : Shape} : ∀ {ps : Parts} {ms : Members}, HasAll ps ms →
    ps.find k = some (r, s) → (k ∉ keys ms ∧ r = false) ∨ ∃ j, Spec.Once k ms j ∧ Matches s j
  | .nil, _, _, h => by simp [Parts.find] at h
  | .cons k' r' s' ps, ms, hm, h => by
    simp only [HasAll] at hm
    simp only [Parts.find] at h
    split at h
    · cases h; subst k; exact hm.1
    · exact HasAll.part hm.2 h

mutual
theorem accepts_sound : ∀ (t : Ty) (s : Shape) (j : Json), accepts t s = true → Matches s j → Conforms t j
  | .str, s, j, h, hm => by
    cases s <;> simp [accepts] at h
    · simpa [Matches, Conforms] using hm
    · simp only [Matches, Conforms] at hm ⊢
      obtain ⟨s, _, h, _⟩ := hm; exact ⟨s, h⟩
  | .bool, s, j, h, hm => by
    cases s <;> simp [accepts] at h
    simpa [Matches, Conforms] using hm
  | .int lo hi, s, j, h, hm => by
    cases s <;> simp [accepts] at h
    · simp only [Matches, Conforms] at hm ⊢
      obtain ⟨i, rfl, h1, h2⟩ := hm
      exact ⟨i, rfl, by omega, by omega⟩
    · simp only [Matches, Conforms] at hm ⊢
      obtain ⟨i, hi, rfl⟩ := hm
      exact ⟨i, rfl, h i hi⟩
  | .codes ds, s, j, h, hm => by
    cases s <;> simp [accepts] at h
    simp only [Matches, Conforms] at hm ⊢
    obtain ⟨i, hi, rfl⟩ := hm
    exact ⟨i, h i hi, rfl⟩
  | .url, s, j, h, hm => by
    cases s <;> simp [accepts] at h
    simpa [Matches, Conforms] using hm
  | .any, s, j, h, hm => trivial
  | .kind, s, j, h, hm => trivial
  | .tag, s, j, h, hm => by simp [accepts] at h
  | .numOrStr, s, j, h, hm => by
    cases s <;> simp [accepts] at h
    simpa only [Matches, Conforms] using hm
  | .opt t, s, j, h, hm => by
    simp only [accepts] at h
    exact .inr (accepts_sound t s j h hm)
  | .list t, s, j, h, hm => by
    cases s <;> simp [accepts] at h
    simp only [Matches] at hm
    obtain ⟨xs, rfl, hx⟩ := hm
    simp only [Conforms]
    exact ⟨xs, rfl, fun x hm => accepts_sound t _ x h (hx x hm)⟩
  | .struct fs, s, j, h, hm => by
    cases s <;> simp [accepts] at h
    simp only [Matches] at hm
    obtain ⟨ms, rfl, hx⟩ := hm
    simp only [Conforms]
    exact .inl ⟨ms, rfl, acceptsAll_sound fs _ ms h hx⟩
theorem acceptsAll_sound : ∀ (fs : Fields) (ps : Parts) (ms : Members), acceptsAll fs ps = true → HasAll ps ms →
    InMap fs ms
  | .nil, _, _, _, _ => trivial
  | .cons k a o t fs, ps, ms, h, hm => by
    simp only [acceptsAll, Bool.and_eq_true] at h
    refine ⟨?_, acceptsAll_sound fs ps ms h.2 hm⟩
    have h1 := h.1
    cases hf : ps.find k with
    | none => rw [hf] at h1; cases h1
    | some q =>
      obtain ⟨r, s⟩ := q
      rw [hf] at h1
      simp only [Bool.and_eq_true, Bool.or_eq_true] at h1
      rcases hm.part hf with ⟨h2, h3⟩ | ⟨j, h2, h3⟩
      · left
        refine ⟨h2, ?_⟩
        rintro rfl
        simp [h3] at h1
      · exact .inr ⟨j, h2, accepts_sound t s j h1.2 h3⟩
end

end
end Protocol
end Bsp
