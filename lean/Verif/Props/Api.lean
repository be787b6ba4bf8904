/-
The constructors, setters and getters of the payload types and the wire: C65 (setters), C66 (getters),
C67 (constructors and defaults), C68 (which values the public functions can build).
Generated by tools/gen_api.py.  In the tables the member a function is about is derived from the name of the
function or parameter, and how its value is written from the schema; the functions themselves (Verif/Api.lean)
are translated from their bodies.
-/
import Verif.Api
import Verif.Payload

set_option linter.unusedSimpArgs false
set_option linter.unusedVariables false

namespace Bsp
open Json

namespace Spec
/-- The (first) member of that name of an object. -/
def member (k : String) : Json → Option Json
  | .obj ms => (ms.find? (fun m => m.1 = k)).map (·.2)
  | _ => none

/-- A setter: what it sets on objects of type `T`, written `enc`, is the member `wire`; a value `v` is written
`val v` (`none`: left out). -/
structure Setter where
  fn : String
  T : Type
  A : Type
  enc : T → Json
  set : T → A → T
  wire : String
  val : A → Option Json

/-- Setting changes that member and no other. -/
def Setter.Law (s : Setter) : Prop :=
  ∀ x v k, member k (s.enc (s.set x v)) = if k = s.wire then s.val v else member k (s.enc x)

/-- A getter: what it returns is the value of the member `wire`. -/
structure Getter where
  fn : String
  T : Type
  A : Type
  enc : T → Json
  get : T → A
  wire : String
  val : A → Option Json

/-- The value returned is what is written under that name. -/
def Getter.Law (s : Getter) : Prop := ∀ x, member s.wire (s.enc x) = s.val (s.get x)

/-- A constructor with its parameters as a tuple, and the members the object it makes has, in order (`none`:
left out). -/
structure Ctor where
  fn : String
  T : Type
  A : Type
  enc : T → Json
  new : A → T
  members : A → List (String × Option Json)

/-- The object made is written with exactly these members, in this order. -/
def Ctor.Law (s : Ctor) : Prop :=
  ∀ a, s.enc (s.new a) = .obj ((s.members a).filterMap fun m => m.2.map (m.1, ·))

/-- The setters. -/
def setters [Ext] : List Setter := [
  ⟨"BuildTargetCapabilities.set_can_compile", BuildTargetCapabilities, _, BuildTargetCapabilities.enc, Api.BuildTargetCapabilities.set_can_compile, "canCompile",
    fun v => some (Json.bool v)⟩,
  ⟨"BuildTargetCapabilities.set_can_test", BuildTargetCapabilities, _, BuildTargetCapabilities.enc, Api.BuildTargetCapabilities.set_can_test, "canTest",
    fun v => some (Json.bool v)⟩,
  ⟨"BuildTargetCapabilities.set_can_run", BuildTargetCapabilities, _, BuildTargetCapabilities.enc, Api.BuildTargetCapabilities.set_can_run, "canRun",
    fun v => some (Json.bool v)⟩,
  ⟨"BuildTargetCapabilities.set_can_debug", BuildTargetCapabilities, _, BuildTargetCapabilities.enc, Api.BuildTargetCapabilities.set_can_debug, "canDebug",
    fun v => some (Json.bool v)⟩,
  ⟨"BuildTargetCleanCache.targets_mut", BuildTargetCleanCache, _, BuildTargetCleanCache.enc, Api.BuildTargetCleanCache.targets_mut, "targets",
    fun v => some (encList BuildTargetIdentifier.enc v)⟩,
  ⟨"BuildTargetCleanCache.set_targets", BuildTargetCleanCache, _, BuildTargetCleanCache.enc, Api.BuildTargetCleanCache.set_targets, "targets",
    fun v => some (encList BuildTargetIdentifier.enc v)⟩,
  ⟨"BuildTargetCleanCacheResult.set_cleaned", BuildTargetCleanCacheResult, _, BuildTargetCleanCacheResult.enc, Api.BuildTargetCleanCacheResult.set_cleaned, "cleaned",
    fun v => some (Json.bool v)⟩,
  ⟨"BuildTargetCleanCacheResult.set_message", BuildTargetCleanCacheResult, _, BuildTargetCleanCacheResult.enc, Api.BuildTargetCleanCacheResult.set_message, "message",
    fun v => v.map Json.str⟩,
  ⟨"BuildTargetCompile.set_target", BuildTargetCompile, _, BuildTargetCompile.enc, Api.BuildTargetCompile.set_target, "target",
    fun v => some (BuildTargetIdentifier.enc v)⟩,
  ⟨"BuildTargetCompile.set_origin_id", BuildTargetCompile, _, BuildTargetCompile.enc, Api.BuildTargetCompile.set_origin_id, "originId",
    fun v => v.map Json.str⟩,
  ⟨"BuildTargetCompile.set_arguments", BuildTargetCompile, _, BuildTargetCompile.enc, Api.BuildTargetCompile.set_arguments, "arguments",
    fun v => v.map Json.str⟩,
  ⟨"BuildTargetCompileResult.set_origin_id", BuildTargetCompileResult, _, BuildTargetCompileResult.enc, Api.BuildTargetCompileResult.set_origin_id, "originId",
    fun v => v.map Json.str⟩,
  ⟨"BuildTargetCompileResult.set_status_code", BuildTargetCompileResult, _, BuildTargetCompileResult.enc, Api.BuildTargetCompileResult.set_status_code, "statusCode",
    fun v => some (encUsize v)⟩,
  ⟨"BuildTargetCompileResult.set_data_kind", BuildTargetCompileResult, _, BuildTargetCompileResult.enc, Api.BuildTargetCompileResult.set_data_kind, "dataKind",
    fun v => v.map Json.str⟩,
  ⟨"BuildTargetCompileResult.set_data", BuildTargetCompileResult, _, BuildTargetCompileResult.enc, Api.BuildTargetCompileResult.set_data, "data",
    fun v => v.map Value.json⟩,
  ⟨"BuildTargetDependencyModules.targets_mut", BuildTargetDependencyModules, _, BuildTargetDependencyModules.enc, Api.BuildTargetDependencyModules.targets_mut, "targets",
    fun v => some (encList BuildTargetIdentifier.enc v)⟩,
  ⟨"BuildTargetDependencyModules.set_targets", BuildTargetDependencyModules, _, BuildTargetDependencyModules.enc, Api.BuildTargetDependencyModules.set_targets, "targets",
    fun v => some (encList BuildTargetIdentifier.enc v)⟩,
  ⟨"BuildTargetDependencyModulesResult.items_mut", BuildTargetDependencyModulesResult, _, BuildTargetDependencyModulesResult.enc, Api.BuildTargetDependencyModulesResult.items_mut, "items",
    fun v => some (encList DependencyModulesItem.enc v)⟩,
  ⟨"DependencyModulesItem.set_modules", DependencyModulesItem, _, DependencyModulesItem.enc, Api.DependencyModulesItem.set_modules, "modules",
    fun v => some (encList DependencyModule.enc v)⟩,
  ⟨"DependencyModule.set_name", DependencyModule, _, DependencyModule.enc, Api.DependencyModule.set_name, "name",
    fun v => some (Json.str v)⟩,
  ⟨"DependencyModule.set_version", DependencyModule, _, DependencyModule.enc, Api.DependencyModule.set_version, "version",
    fun v => some (Json.str v)⟩,
  ⟨"DependencyModule.set_data_kind", DependencyModule, _, DependencyModule.enc, Api.DependencyModule.set_data_kind, "dataKind",
    fun v => some (encOpt Json.str v)⟩,
  ⟨"BuildTargetDependencySources.set_text_document", BuildTargetDependencySources, _, BuildTargetDependencySources.enc, Api.BuildTargetDependencySources.set_text_document, "textDocument",
    fun v => some (TextDocumentIdentifier.enc v)⟩,
  ⟨"DependencySourcesItem.set_target", DependencySourcesItem, _, DependencySourcesItem.enc, Api.DependencySourcesItem.set_target, "target",
    fun v => some (BuildTargetIdentifier.enc v)⟩,
  ⟨"DependencySourcesItem.set_sources", DependencySourcesItem, _, DependencySourcesItem.enc, Api.DependencySourcesItem.set_sources, "sources",
    fun v => some (encList Json.str v)⟩,
  ⟨"BuildTargetIdentifier.set_uri", BuildTargetIdentifier, _, BuildTargetIdentifier.enc, Api.BuildTargetIdentifier.set_uri, "uri",
    fun v => some (encUrl v)⟩,
  ⟨"TextDocumentInverseSources.set_text_document", TextDocumentInverseSources, _, TextDocumentInverseSources.enc, Api.TextDocumentInverseSources.set_text_document, "textDocument",
    fun v => some (TextDocumentIdentifier.enc v)⟩,
  ⟨"BuildTargetResources.set_targets", BuildTargetResources, _, BuildTargetResources.enc, Api.BuildTargetResources.set_targets, "targets",
    fun v => some (encList BuildTargetIdentifier.enc v)⟩,
  ⟨"BuildTargetResources.targets_mut", BuildTargetResources, _, BuildTargetResources.enc, Api.BuildTargetResources.targets_mut, "targets",
    fun v => some (encList BuildTargetIdentifier.enc v)⟩,
  ⟨"BuildTargetResourcesResult.items_mut", BuildTargetResourcesResult, _, BuildTargetResourcesResult.enc, Api.BuildTargetResourcesResult.items_mut, "items",
    fun v => some (encList Resources.enc v)⟩,
  ⟨"Resources.set_target", Resources, _, Resources.enc, Api.Resources.set_target, "target",
    fun v => some (BuildTargetIdentifier.enc v)⟩,
  ⟨"Resources.set_resources", Resources, _, Resources.enc, Api.Resources.set_resources, "resources",
    fun v => some (encList Json.str v)⟩,
  ⟨"BuildTargetRun.set_target", BuildTargetRun, _, BuildTargetRun.enc, Api.BuildTargetRun.set_target, "target",
    fun v => some (BuildTargetIdentifier.enc v)⟩,
  ⟨"BuildTargetRun.set_origin_id", BuildTargetRun, _, BuildTargetRun.enc, Api.BuildTargetRun.set_origin_id, "originId",
    fun v => v.map Json.str⟩,
  ⟨"BuildTargetRun.set_arguments", BuildTargetRun, _, BuildTargetRun.enc, Api.BuildTargetRun.set_arguments, "arguments",
    fun v => v.map Json.str⟩,
  ⟨"BuildTargetRun.set_data_kind", BuildTargetRun, _, BuildTargetRun.enc, Api.BuildTargetRun.set_data_kind, "dataKind",
    fun v => v.map Json.str⟩,
  ⟨"BuildTargetRun.set_data", BuildTargetRun, _, BuildTargetRun.enc, Api.BuildTargetRun.set_data, "data",
    fun v => v.map Value.json⟩,
  ⟨"BuildTargetRunResult.set_origin_id", BuildTargetRunResult, _, BuildTargetRunResult.enc, Api.BuildTargetRunResult.set_origin_id, "originId",
    fun v => v.map Json.str⟩,
  ⟨"BuildTargetRunResult.set_status_code", BuildTargetRunResult, _, BuildTargetRunResult.enc, Api.BuildTargetRunResult.set_status_code, "statusCode",
    fun v => some (encUsize v)⟩,
  ⟨"BuildTargetSources.set_targets", BuildTargetSources, _, BuildTargetSources.enc, Api.BuildTargetSources.set_targets, "targets",
    fun v => some (encList BuildTargetIdentifier.enc v)⟩,
  ⟨"BuildTargetSourcesResult.set_items", BuildTargetSourcesResult, _, BuildTargetSourcesResult.enc, Api.BuildTargetSourcesResult.set_items, "items",
    fun v => some (encList SourcesCollection.enc v)⟩,
  ⟨"SourcesCollection.set_target", SourcesCollection, _, SourcesCollection.enc, Api.SourcesCollection.set_target, "target",
    fun v => some (BuildTargetIdentifier.enc v)⟩,
  ⟨"SourcesCollection.set_sources", SourcesCollection, _, SourcesCollection.enc, Api.SourcesCollection.set_sources, "sources",
    fun v => some (encList Sources.enc v)⟩,
  ⟨"Sources.set_kind", Sources, _, Sources.enc, Api.Sources.set_kind, "kind",
    fun v => some (SourceKind.enc v)⟩,
  ⟨"Sources.set_uri", Sources, _, Sources.enc, Api.Sources.set_uri, "uri",
    fun v => some (encUrl v)⟩,
  ⟨"Sources.set_generated", Sources, _, Sources.enc, Api.Sources.set_generated, "generated",
    fun v => some (Json.bool v)⟩,
  ⟨"BuildTargetTest.set_target", BuildTargetTest, _, BuildTargetTest.enc, Api.BuildTargetTest.set_target, "target",
    fun v => some (BuildTargetIdentifier.enc v)⟩,
  ⟨"BuildTargetTest.set_origin_id", BuildTargetTest, _, BuildTargetTest.enc, Api.BuildTargetTest.set_origin_id, "originId",
    fun v => v.map Json.str⟩,
  ⟨"BuildTargetTest.set_arguments", BuildTargetTest, _, BuildTargetTest.enc, Api.BuildTargetTest.set_arguments, "arguments",
    fun v => v.map Json.str⟩,
  ⟨"BuildTargetTest.set_data_kind", BuildTargetTest, _, BuildTargetTest.enc, Api.BuildTargetTest.set_data_kind, "dataKind",
    fun v => v.map Json.str⟩,
  ⟨"BuildTargetTest.set_data", BuildTargetTest, _, BuildTargetTest.enc, Api.BuildTargetTest.set_data, "data",
    fun v => v.map Value.json⟩,
  ⟨"BuildTargetTestResult.set_origin_id", BuildTargetTestResult, _, BuildTargetTestResult.enc, Api.BuildTargetTestResult.set_origin_id, "originId",
    fun v => v.map Json.str⟩,
  ⟨"BuildTargetTestResult.set_status_code", BuildTargetTestResult, _, BuildTargetTestResult.enc, Api.BuildTargetTestResult.set_status_code, "statusCode",
    fun v => some (encUsize v)⟩,
  ⟨"BuildTargetTestResult.set_data_kind", BuildTargetTestResult, _, BuildTargetTestResult.enc, Api.BuildTargetTestResult.set_data_kind, "dataKind",
    fun v => v.map Json.str⟩,
  ⟨"BuildTargetTestResult.set_data", BuildTargetTestResult, _, BuildTargetTestResult.enc, Api.BuildTargetTestResult.set_data, "data",
    fun v => v.map Value.json⟩,
  ⟨"ClientCapabilities.set_language_ids", ClientCapabilities, _, ClientCapabilities.enc, Api.ClientCapabilities.set_language_ids, "languageIds",
    fun v => some (encList Json.str v)⟩,
  ⟨"ClientCapabilities.language_ids_mut", ClientCapabilities, _, ClientCapabilities.enc, Api.ClientCapabilities.language_ids_mut, "languageIds",
    fun v => some (encList Json.str v)⟩,
  ⟨"DebugSessionStart.set_targets", DebugSessionStart, _, DebugSessionStart.enc, Api.DebugSessionStart.set_targets, "targets",
    fun v => some (encList BuildTargetIdentifier.enc v)⟩,
  ⟨"DebugSessionStart.set_data_kind", DebugSessionStart, _, DebugSessionStart.enc, Api.DebugSessionStart.set_data_kind, "dataKind",
    fun v => some (Json.str v)⟩,
  ⟨"DebugSessionStart.set_data", DebugSessionStart, _, DebugSessionStart.enc, Api.DebugSessionStart.set_data, "data",
    fun v => if v = Value.null then none else some v.json⟩,
  ⟨"InitializeBuild.set_data", InitializeBuild, _, InitializeBuild.enc, Api.InitializeBuild.set_data, "data",
    fun v => v.map Value.json⟩,
  ⟨"InitializeBuild.set_capabilities", InitializeBuild, _, InitializeBuild.enc, Api.InitializeBuild.set_capabilities, "capabilities",
    fun v => some (ClientCapabilities.enc v)⟩,
  ⟨"InitializeBuild.set_root_uri", InitializeBuild, _, InitializeBuild.enc, Api.InitializeBuild.set_root_uri, "rootUri",
    fun v => some (encUrl v)⟩,
  ⟨"InitializeBuild.set_bsp_version", InitializeBuild, _, InitializeBuild.enc, Api.InitializeBuild.set_bsp_version, "bspVersion",
    fun v => if v = "" then none else some (Json.str v)⟩,
  ⟨"InitializeBuild.set_version", InitializeBuild, _, InitializeBuild.enc, Api.InitializeBuild.set_version, "version",
    fun v => if v = "" then none else some (Json.str v)⟩,
  ⟨"InitializeBuild.set_display_name", InitializeBuild, _, InitializeBuild.enc, Api.InitializeBuild.set_display_name, "displayName",
    fun v => some (Json.str v)⟩,
  ⟨"InitializeBuildResult.set_bsp_version", InitializeBuildResult, _, InitializeBuildResult.enc, Api.InitializeBuildResult.set_bsp_version, "bspVersion",
    fun v => some (Json.str v)⟩,
  ⟨"InitializeBuildResult.set_version", InitializeBuildResult, _, InitializeBuildResult.enc, Api.InitializeBuildResult.set_version, "version",
    fun v => some (Json.str v)⟩,
  ⟨"InitializeBuildResult.set_display_name", InitializeBuildResult, _, InitializeBuildResult.enc, Api.InitializeBuildResult.set_display_name, "displayName",
    fun v => some (Json.str v)⟩,
  ⟨"InitializeBuildResult.set_capabilities", InitializeBuildResult, _, InitializeBuildResult.enc, Api.InitializeBuildResult.set_capabilities, "capabilities",
    fun v => some (ServerCapabilities.enc v)⟩,
  ⟨"InitializeBuildResult.set_data", InitializeBuildResult, _, InitializeBuildResult.enc, Api.InitializeBuildResult.set_data, "data",
    fun v => v.map Value.json⟩,
  ⟨"InitializeBuildResult.data_mut", InitializeBuildResult, _, InitializeBuildResult.enc, Api.InitializeBuildResult.data_mut, "data",
    fun v => v.map Value.json⟩,
  ⟨"ServerCapabilities.set_compile_provider", ServerCapabilities, _, ServerCapabilities.enc, Api.ServerCapabilities.set_compile_provider, "compileProvider",
    fun v => v.map CompileProvider.enc⟩,
  ⟨"ServerCapabilities.set_test_provider", ServerCapabilities, _, ServerCapabilities.enc, Api.ServerCapabilities.set_test_provider, "testProvider",
    fun v => v.map TestProvider.enc⟩,
  ⟨"ServerCapabilities.set_run_provider", ServerCapabilities, _, ServerCapabilities.enc, Api.ServerCapabilities.set_run_provider, "runProvider",
    fun v => v.map RunProvider.enc⟩,
  ⟨"ServerCapabilities.set_debug_provider", ServerCapabilities, _, ServerCapabilities.enc, Api.ServerCapabilities.set_debug_provider, "debugProvider",
    fun v => v.map DebugProvider.enc⟩,
  ⟨"ServerCapabilities.set_inverse_sources_provider", ServerCapabilities, _, ServerCapabilities.enc, Api.ServerCapabilities.set_inverse_sources_provider, "inverseSourcesProvider",
    fun v => v.map Json.bool⟩,
  ⟨"ServerCapabilities.set_dependency_sources_provider", ServerCapabilities, _, ServerCapabilities.enc, Api.ServerCapabilities.set_dependency_sources_provider, "dependencySourcesProvider",
    fun v => v.map Json.bool⟩,
  ⟨"ServerCapabilities.set_dependency_modules_provider", ServerCapabilities, _, ServerCapabilities.enc, Api.ServerCapabilities.set_dependency_modules_provider, "dependencyModulesProvider",
    fun v => v.map Json.bool⟩,
  ⟨"ServerCapabilities.set_resources_provider", ServerCapabilities, _, ServerCapabilities.enc, Api.ServerCapabilities.set_resources_provider, "resourcesProvider",
    fun v => v.map Json.bool⟩,
  ⟨"ServerCapabilities.set_can_reload", ServerCapabilities, _, ServerCapabilities.enc, Api.ServerCapabilities.set_can_reload, "canReload",
    fun v => v.map Json.bool⟩,
  ⟨"ServerCapabilities.set_build_target_changed_provider", ServerCapabilities, _, ServerCapabilities.enc, Api.ServerCapabilities.set_build_target_changed_provider, "buildTargetChangedProvider",
    fun v => v.map Json.bool⟩]

/-- The getters. -/
def getters [Ext] : List Getter := [
  ⟨"BuildTargetCapabilities.can_compile", BuildTargetCapabilities, _, BuildTargetCapabilities.enc, Api.BuildTargetCapabilities.can_compile, "canCompile",
    fun v => some (Json.bool v)⟩,
  ⟨"BuildTargetCapabilities.can_test", BuildTargetCapabilities, _, BuildTargetCapabilities.enc, Api.BuildTargetCapabilities.can_test, "canTest",
    fun v => some (Json.bool v)⟩,
  ⟨"BuildTargetCapabilities.can_run", BuildTargetCapabilities, _, BuildTargetCapabilities.enc, Api.BuildTargetCapabilities.can_run, "canRun",
    fun v => some (Json.bool v)⟩,
  ⟨"BuildTargetCapabilities.can_debug", BuildTargetCapabilities, _, BuildTargetCapabilities.enc, Api.BuildTargetCapabilities.can_debug, "canDebug",
    fun v => some (Json.bool v)⟩,
  ⟨"BuildTargetCleanCache.targets", BuildTargetCleanCache, _, BuildTargetCleanCache.enc, Api.BuildTargetCleanCache.targets, "targets",
    fun v => some (encList BuildTargetIdentifier.enc v)⟩,
  ⟨"BuildTargetCleanCacheResult.message", BuildTargetCleanCacheResult, _, BuildTargetCleanCacheResult.enc, Api.BuildTargetCleanCacheResult.message, "message",
    fun v => v.map Json.str⟩,
  ⟨"BuildTargetCleanCacheResult.cleaned", BuildTargetCleanCacheResult, _, BuildTargetCleanCacheResult.enc, Api.BuildTargetCleanCacheResult.cleaned, "cleaned",
    fun v => some (Json.bool v)⟩,
  ⟨"BuildTargetCompile.target", BuildTargetCompile, _, BuildTargetCompile.enc, Api.BuildTargetCompile.target, "target",
    fun v => some (BuildTargetIdentifier.enc v)⟩,
  ⟨"BuildTargetCompile.origin_id", BuildTargetCompile, _, BuildTargetCompile.enc, Api.BuildTargetCompile.origin_id, "originId",
    fun v => v.map Json.str⟩,
  ⟨"BuildTargetCompile.arguments", BuildTargetCompile, _, BuildTargetCompile.enc, Api.BuildTargetCompile.arguments, "arguments",
    fun v => v.map Json.str⟩,
  ⟨"BuildTargetCompileResult.origin_id", BuildTargetCompileResult, _, BuildTargetCompileResult.enc, Api.BuildTargetCompileResult.origin_id, "originId",
    fun v => v.map Json.str⟩,
  ⟨"BuildTargetCompileResult.status_code", BuildTargetCompileResult, _, BuildTargetCompileResult.enc, Api.BuildTargetCompileResult.status_code, "statusCode",
    fun v => some (encUsize v)⟩,
  ⟨"BuildTargetCompileResult.data_kind", BuildTargetCompileResult, _, BuildTargetCompileResult.enc, Api.BuildTargetCompileResult.data_kind, "dataKind",
    fun v => v.map Json.str⟩,
  ⟨"BuildTargetCompileResult.data", BuildTargetCompileResult, _, BuildTargetCompileResult.enc, Api.BuildTargetCompileResult.data, "data",
    fun v => v.map Value.json⟩,
  ⟨"BuildTargetDependencyModules.targets", BuildTargetDependencyModules, _, BuildTargetDependencyModules.enc, Api.BuildTargetDependencyModules.targets, "targets",
    fun v => some (encList BuildTargetIdentifier.enc v)⟩,
  ⟨"BuildTargetDependencyModulesResult.items", BuildTargetDependencyModulesResult, _, BuildTargetDependencyModulesResult.enc, Api.BuildTargetDependencyModulesResult.items, "items",
    fun v => some (encList DependencyModulesItem.enc v)⟩,
  ⟨"DependencyModulesItem.target", DependencyModulesItem, _, DependencyModulesItem.enc, Api.DependencyModulesItem.target, "target",
    fun v => some (BuildTargetIdentifier.enc v)⟩,
  ⟨"DependencyModulesItem.modules", DependencyModulesItem, _, DependencyModulesItem.enc, Api.DependencyModulesItem.modules, "modules",
    fun v => some (encList DependencyModule.enc v)⟩,
  ⟨"DependencyModule.name", DependencyModule, _, DependencyModule.enc, Api.DependencyModule.name, "name",
    fun v => some (Json.str v)⟩,
  ⟨"DependencyModule.version", DependencyModule, _, DependencyModule.enc, Api.DependencyModule.version, "version",
    fun v => some (Json.str v)⟩,
  ⟨"DependencyModule.data_kind", DependencyModule, _, DependencyModule.enc, Api.DependencyModule.data_kind, "dataKind",
    fun v => some (encOpt Json.str v)⟩,
  ⟨"BuildTargetDependencySources.text_document", BuildTargetDependencySources, _, BuildTargetDependencySources.enc, Api.BuildTargetDependencySources.text_document, "textDocument",
    fun v => some (TextDocumentIdentifier.enc v)⟩,
  ⟨"DependencySourcesItem.sources", DependencySourcesItem, _, DependencySourcesItem.enc, Api.DependencySourcesItem.sources, "sources",
    fun v => some (encList Json.str v)⟩,
  ⟨"DependencySourcesItem.target", DependencySourcesItem, _, DependencySourcesItem.enc, Api.DependencySourcesItem.target, "target",
    fun v => some (BuildTargetIdentifier.enc v)⟩,
  ⟨"BuildTargetIdentifier.uri", BuildTargetIdentifier, _, BuildTargetIdentifier.enc, Api.BuildTargetIdentifier.uri, "uri",
    fun v => some (.str v)⟩,
  ⟨"TextDocumentInverseSources.text_document", TextDocumentInverseSources, _, TextDocumentInverseSources.enc, Api.TextDocumentInverseSources.text_document, "textDocument",
    fun v => some (TextDocumentIdentifier.enc v)⟩,
  ⟨"BuildTargetResources.targets", BuildTargetResources, _, BuildTargetResources.enc, Api.BuildTargetResources.targets, "targets",
    fun v => some (encList BuildTargetIdentifier.enc v)⟩,
  ⟨"BuildTargetResourcesResult.items", BuildTargetResourcesResult, _, BuildTargetResourcesResult.enc, Api.BuildTargetResourcesResult.items, "items",
    fun v => some (encList Resources.enc v)⟩,
  ⟨"Resources.target", Resources, _, Resources.enc, Api.Resources.target, "target",
    fun v => some (BuildTargetIdentifier.enc v)⟩,
  ⟨"Resources.resources", Resources, _, Resources.enc, Api.Resources.resources, "resources",
    fun v => some (encList Json.str v)⟩,
  ⟨"BuildTargetRun.target", BuildTargetRun, _, BuildTargetRun.enc, Api.BuildTargetRun.target, "target",
    fun v => some (BuildTargetIdentifier.enc v)⟩,
  ⟨"BuildTargetRun.origin_id", BuildTargetRun, _, BuildTargetRun.enc, Api.BuildTargetRun.origin_id, "originId",
    fun v => v.map Json.str⟩,
  ⟨"BuildTargetRun.arguments", BuildTargetRun, _, BuildTargetRun.enc, Api.BuildTargetRun.arguments, "arguments",
    fun v => v.map Json.str⟩,
  ⟨"BuildTargetRun.data_kind", BuildTargetRun, _, BuildTargetRun.enc, Api.BuildTargetRun.data_kind, "dataKind",
    fun v => v.map Json.str⟩,
  ⟨"BuildTargetRun.data", BuildTargetRun, _, BuildTargetRun.enc, Api.BuildTargetRun.data, "data",
    fun v => v.map Value.json⟩,
  ⟨"BuildTargetRunResult.origin_id", BuildTargetRunResult, _, BuildTargetRunResult.enc, Api.BuildTargetRunResult.origin_id, "originId",
    fun v => v.map Json.str⟩,
  ⟨"BuildTargetRunResult.status_code", BuildTargetRunResult, _, BuildTargetRunResult.enc, Api.BuildTargetRunResult.status_code, "statusCode",
    fun v => some (encUsize v)⟩,
  ⟨"BuildTargetSources.targets", BuildTargetSources, _, BuildTargetSources.enc, Api.BuildTargetSources.targets, "targets",
    fun v => some (encList BuildTargetIdentifier.enc v)⟩,
  ⟨"BuildTargetSourcesResult.items", BuildTargetSourcesResult, _, BuildTargetSourcesResult.enc, Api.BuildTargetSourcesResult.items, "items",
    fun v => some (encList SourcesCollection.enc v)⟩,
  ⟨"SourcesCollection.target", SourcesCollection, _, SourcesCollection.enc, Api.SourcesCollection.target, "target",
    fun v => some (BuildTargetIdentifier.enc v)⟩,
  ⟨"SourcesCollection.sources", SourcesCollection, _, SourcesCollection.enc, Api.SourcesCollection.sources, "sources",
    fun v => some (encList Sources.enc v)⟩,
  ⟨"Sources.kind", Sources, _, Sources.enc, Api.Sources.kind, "kind",
    fun v => some (SourceKind.enc v)⟩,
  ⟨"Sources.uri", Sources, _, Sources.enc, Api.Sources.uri, "uri",
    fun v => some (encUrl v)⟩,
  ⟨"Sources.generated", Sources, _, Sources.enc, Api.Sources.generated, "generated",
    fun v => some (Json.bool v)⟩,
  ⟨"BuildTargetTest.target", BuildTargetTest, _, BuildTargetTest.enc, Api.BuildTargetTest.target, "target",
    fun v => some (BuildTargetIdentifier.enc v)⟩,
  ⟨"BuildTargetTest.origin_id", BuildTargetTest, _, BuildTargetTest.enc, Api.BuildTargetTest.origin_id, "originId",
    fun v => v.map Json.str⟩,
  ⟨"BuildTargetTest.arguments", BuildTargetTest, _, BuildTargetTest.enc, Api.BuildTargetTest.arguments, "arguments",
    fun v => v.map Json.str⟩,
  ⟨"BuildTargetTest.data_kind", BuildTargetTest, _, BuildTargetTest.enc, Api.BuildTargetTest.data_kind, "dataKind",
    fun v => v.map Json.str⟩,
  ⟨"BuildTargetTest.data", BuildTargetTest, _, BuildTargetTest.enc, Api.BuildTargetTest.data, "data",
    fun v => v.map Value.json⟩,
  ⟨"BuildTargetTestResult.origin_id", BuildTargetTestResult, _, BuildTargetTestResult.enc, Api.BuildTargetTestResult.origin_id, "originId",
    fun v => v.map Json.str⟩,
  ⟨"BuildTargetTestResult.status_code", BuildTargetTestResult, _, BuildTargetTestResult.enc, Api.BuildTargetTestResult.status_code, "statusCode",
    fun v => some (encUsize v)⟩,
  ⟨"BuildTargetTestResult.data_kind", BuildTargetTestResult, _, BuildTargetTestResult.enc, Api.BuildTargetTestResult.data_kind, "dataKind",
    fun v => v.map Json.str⟩,
  ⟨"BuildTargetTestResult.data", BuildTargetTestResult, _, BuildTargetTestResult.enc, Api.BuildTargetTestResult.data, "data",
    fun v => v.map Value.json⟩,
  ⟨"ClientCapabilities.language_ids", ClientCapabilities, _, ClientCapabilities.enc, Api.ClientCapabilities.language_ids, "languageIds",
    fun v => some (encList Json.str v)⟩,
  ⟨"DebugSessionStart.targets", DebugSessionStart, _, DebugSessionStart.enc, Api.DebugSessionStart.targets, "targets",
    fun v => some (encList BuildTargetIdentifier.enc v)⟩,
  ⟨"DebugSessionStart.data_kind", DebugSessionStart, _, DebugSessionStart.enc, Api.DebugSessionStart.data_kind, "dataKind",
    fun v => some (Json.str v)⟩,
  ⟨"DebugSessionStart.data", DebugSessionStart, _, DebugSessionStart.enc, Api.DebugSessionStart.data, "data",
    fun v => if v = Value.null then none else some v.json⟩,
  ⟨"InitializeBuild.data", InitializeBuild, _, InitializeBuild.enc, Api.InitializeBuild.data, "data",
    fun v => v.map Value.json⟩,
  ⟨"InitializeBuild.capabilities", InitializeBuild, _, InitializeBuild.enc, Api.InitializeBuild.capabilities, "capabilities",
    fun v => some (ClientCapabilities.enc v)⟩,
  ⟨"InitializeBuild.root_uri", InitializeBuild, _, InitializeBuild.enc, Api.InitializeBuild.root_uri, "rootUri",
    fun v => some (encUrl v)⟩,
  ⟨"InitializeBuild.bsp_version", InitializeBuild, _, InitializeBuild.enc, Api.InitializeBuild.bsp_version, "bspVersion",
    fun v => if v = "" then none else some (Json.str v)⟩,
  ⟨"InitializeBuild.version", InitializeBuild, _, InitializeBuild.enc, Api.InitializeBuild.version, "version",
    fun v => if v = "" then none else some (Json.str v)⟩,
  ⟨"InitializeBuild.display_name", InitializeBuild, _, InitializeBuild.enc, Api.InitializeBuild.display_name, "displayName",
    fun v => some (Json.str v)⟩,
  ⟨"InitializeBuildResult.bsp_version", InitializeBuildResult, _, InitializeBuildResult.enc, Api.InitializeBuildResult.bsp_version, "bspVersion",
    fun v => some (Json.str v)⟩,
  ⟨"InitializeBuildResult.version", InitializeBuildResult, _, InitializeBuildResult.enc, Api.InitializeBuildResult.version, "version",
    fun v => some (Json.str v)⟩,
  ⟨"InitializeBuildResult.display_name", InitializeBuildResult, _, InitializeBuildResult.enc, Api.InitializeBuildResult.display_name, "displayName",
    fun v => some (Json.str v)⟩,
  ⟨"InitializeBuildResult.capabilities", InitializeBuildResult, _, InitializeBuildResult.enc, Api.InitializeBuildResult.capabilities, "capabilities",
    fun v => some (ServerCapabilities.enc v)⟩,
  ⟨"InitializeBuildResult.data", InitializeBuildResult, _, InitializeBuildResult.enc, Api.InitializeBuildResult.data, "data",
    fun v => v.map Value.json⟩,
  ⟨"ServerCapabilities.compile_provider", ServerCapabilities, _, ServerCapabilities.enc, Api.ServerCapabilities.compile_provider, "compileProvider",
    fun v => v.map CompileProvider.enc⟩,
  ⟨"ServerCapabilities.test_provider", ServerCapabilities, _, ServerCapabilities.enc, Api.ServerCapabilities.test_provider, "testProvider",
    fun v => v.map TestProvider.enc⟩,
  ⟨"ServerCapabilities.run_provider", ServerCapabilities, _, ServerCapabilities.enc, Api.ServerCapabilities.run_provider, "runProvider",
    fun v => v.map RunProvider.enc⟩,
  ⟨"ServerCapabilities.debug_provider", ServerCapabilities, _, ServerCapabilities.enc, Api.ServerCapabilities.debug_provider, "debugProvider",
    fun v => v.map DebugProvider.enc⟩,
  ⟨"ServerCapabilities.inverse_sources_provider", ServerCapabilities, _, ServerCapabilities.enc, Api.ServerCapabilities.inverse_sources_provider, "inverseSourcesProvider",
    fun v => v.map Json.bool⟩,
  ⟨"ServerCapabilities.dependency_sources_provider", ServerCapabilities, _, ServerCapabilities.enc, Api.ServerCapabilities.dependency_sources_provider, "dependencySourcesProvider",
    fun v => v.map Json.bool⟩,
  ⟨"ServerCapabilities.dependency_modules_provider", ServerCapabilities, _, ServerCapabilities.enc, Api.ServerCapabilities.dependency_modules_provider, "dependencyModulesProvider",
    fun v => v.map Json.bool⟩,
  ⟨"ServerCapabilities.resources_provider", ServerCapabilities, _, ServerCapabilities.enc, Api.ServerCapabilities.resources_provider, "resourcesProvider",
    fun v => v.map Json.bool⟩,
  ⟨"ServerCapabilities.can_reload", ServerCapabilities, _, ServerCapabilities.enc, Api.ServerCapabilities.can_reload, "canReload",
    fun v => v.map Json.bool⟩,
  ⟨"ServerCapabilities.build_target_changed_provider", ServerCapabilities, _, ServerCapabilities.enc, Api.ServerCapabilities.build_target_changed_provider, "buildTargetChangedProvider",
    fun v => v.map Json.bool⟩]

/-- The constructors and the default values. -/
def ctors [Ext] : List Ctor := [
  ⟨"ClientCapabilities.default", ClientCapabilities, Unit, ClientCapabilities.enc, fun _ => Api.default_ClientCapabilities,
    fun _ => [("languageIds", some (.arr []))]⟩,
  ⟨"DebugSessionStart.default", DebugSessionStart, Unit, DebugSessionStart.enc, fun _ => Api.default_DebugSessionStart,
    fun _ => [("targets", some (.arr [])),
      ("dataKind", some (.str "")),
      ("data", none)]⟩,
  ⟨"ShowMessage.default", ShowMessage, Unit, ShowMessage.enc, fun _ => Api.default_ShowMessage,
    fun _ => [("type", some (.int 4)),
      ("message", some (.str "")),
      ("task", none),
      ("originId", none)]⟩,
  ⟨"LogMessage.default", LogMessage, Unit, LogMessage.enc, fun _ => Api.default_LogMessage,
    fun _ => [("type", some (.int 4)),
      ("task", none),
      ("originId", none),
      ("message", some (.str ""))]⟩,
  ⟨"TaskId.default", TaskId, Unit, TaskId.enc, fun _ => Api.default_TaskId,
    fun _ => [("id", some (.str "")),
      ("parents", none)]⟩,
  ⟨"TaskStart.default", TaskStart, Unit, TaskStart.enc, fun _ => Api.default_TaskStart,
    fun _ => [("taskId", some (.obj [("id", .str "")])),
      ("eventTime", none),
      ("message", none),
      ("dataKind", none),
      ("data", none)]⟩,
  ⟨"TaskFinish.default", TaskFinish, Unit, TaskFinish.enc, fun _ => Api.default_TaskFinish,
    fun _ => [("taskId", some (.obj [("id", .str "")])),
      ("eventTime", none),
      ("message", none),
      ("status", some (.int 1)),
      ("dataKind", none),
      ("data", none)]⟩,
  ⟨"TaskProgress.default", TaskProgress, Unit, TaskProgress.enc, fun _ => Api.default_TaskProgress,
    fun _ => [("taskId", some (.obj [("id", .str "")])),
      ("eventTime", none),
      ("message", none),
      ("total", some (.null)),
      ("progress", some (.null)),
      ("unit", none),
      ("dataKind", none),
      ("data", none)]⟩,
  ⟨"BuildTargetDidChange.default", BuildTargetDidChange, Unit, BuildTargetDidChange.enc, fun _ => Api.default_BuildTargetDidChange,
    fun _ => [("changes", some (.arr []))]⟩,
  ⟨"CompileProvider.default", CompileProvider, Unit, CompileProvider.enc, fun _ => Api.default_CompileProvider,
    fun _ => [("languageIds", some (.arr []))]⟩,
  ⟨"TestProvider.default", TestProvider, Unit, TestProvider.enc, fun _ => Api.default_TestProvider,
    fun _ => [("languageIds", some (.arr []))]⟩,
  ⟨"RunProvider.default", RunProvider, Unit, RunProvider.enc, fun _ => Api.default_RunProvider,
    fun _ => [("languageIds", some (.arr []))]⟩,
  ⟨"DebugProvider.default", DebugProvider, Unit, DebugProvider.enc, fun _ => Api.default_DebugProvider,
    fun _ => [("languageIds", some (.arr []))]⟩,
  ⟨"ServerCapabilities.default", ServerCapabilities, Unit, ServerCapabilities.enc, fun _ => Api.default_ServerCapabilities,
    fun _ => [("compileProvider", none),
      ("testProvider", none),
      ("runProvider", none),
      ("debugProvider", none),
      ("inverseSourcesProvider", none),
      ("dependencySourcesProvider", none),
      ("dependencyModulesProvider", none),
      ("resourcesProvider", none),
      ("canReload", none),
      ("buildTargetChangedProvider", none)]⟩,
  ⟨"InitializeBuildResult.default", InitializeBuildResult, Unit, InitializeBuildResult.enc, fun _ => Api.default_InitializeBuildResult,
    fun _ => [("displayName", some (.str "")),
      ("version", some (.str "")),
      ("bspVersion", some (.str "")),
      ("capabilities", some (.obj [])),
      ("data", none)]⟩,
  ⟨"BuildTargetCapabilities.default", BuildTargetCapabilities, Unit, BuildTargetCapabilities.enc, fun _ => Api.default_BuildTargetCapabilities,
    fun _ => [("canCompile", some (.bool false)),
      ("canTest", some (.bool false)),
      ("canRun", some (.bool false)),
      ("canDebug", some (.bool false))]⟩,
  ⟨"WorkspaceBuildTargetsResult.default", WorkspaceBuildTargetsResult, Unit, WorkspaceBuildTargetsResult.enc, fun _ => Api.default_WorkspaceBuildTargetsResult,
    fun _ => [("targets", some (.arr []))]⟩,
  ⟨"BuildTargetSourcesResult.default", BuildTargetSourcesResult, Unit, BuildTargetSourcesResult.enc, fun _ => Api.default_BuildTargetSourcesResult,
    fun _ => [("items", some (.arr []))]⟩,
  ⟨"BuildTargetResourcesResult.default", BuildTargetResourcesResult, Unit, BuildTargetResourcesResult.enc, fun _ => Api.default_BuildTargetResourcesResult,
    fun _ => [("items", some (.arr []))]⟩,
  ⟨"DependencyModule.default", DependencyModule, Unit, DependencyModule.enc, fun _ => Api.default_DependencyModule,
    fun _ => [("name", some (.str "")),
      ("version", some (.str "")),
      ("dataKind", some (.null)),
      ("data", some (.null))]⟩,
  ⟨"BuildTargetDependencyModulesResult.default", BuildTargetDependencyModulesResult, Unit, BuildTargetDependencyModulesResult.enc, fun _ => Api.default_BuildTargetDependencyModulesResult,
    fun _ => [("items", some (.arr []))]⟩,
  ⟨"BuildTargetInverseSourcesResult.default", BuildTargetInverseSourcesResult, Unit, BuildTargetInverseSourcesResult.enc, fun _ => Api.default_BuildTargetInverseSourcesResult,
    fun _ => [("targets", some (.arr []))]⟩,
  ⟨"BuildTargetDependencySourcesResult.default", BuildTargetDependencySourcesResult, Unit, BuildTargetDependencySourcesResult.enc, fun _ => Api.default_BuildTargetDependencySourcesResult,
    fun _ => [("items", some (.arr []))]⟩,
  ⟨"BuildTargetCapabilities.new", BuildTargetCapabilities, Bool × Bool × Bool × Bool, BuildTargetCapabilities.enc, fun (can_compile, can_test, can_run, can_debug) => Api.BuildTargetCapabilities.new can_compile can_test can_run can_debug,
    fun (can_compile, can_test, can_run, can_debug) => [("canCompile", some (Json.bool can_compile)),
      ("canTest", some (Json.bool can_test)),
      ("canRun", some (Json.bool can_run)),
      ("canDebug", some (Json.bool can_debug))]⟩,
  ⟨"BuildTargetCleanCacheResult.new", BuildTargetCleanCacheResult, Option String × Bool, BuildTargetCleanCacheResult.enc, fun (message, cleaned) => Api.BuildTargetCleanCacheResult.new message cleaned,
    fun (message, cleaned) => [("message", message.map Json.str),
      ("cleaned", some (Json.bool cleaned))]⟩,
  ⟨"BuildTargetCleanCacheResult.new_simple", BuildTargetCleanCacheResult, Bool, BuildTargetCleanCacheResult.enc, fun cleaned => Api.BuildTargetCleanCacheResult.new_simple cleaned,
    fun cleaned => [("message", none),
      ("cleaned", some (Json.bool cleaned))]⟩,
  ⟨"BuildTargetCompile.new", BuildTargetCompile, BuildTargetIdentifier × Option String × Option String, BuildTargetCompile.enc, fun (target, origin_id, arguments) => Api.BuildTargetCompile.new target origin_id arguments,
    fun (target, origin_id, arguments) => [("target", some (BuildTargetIdentifier.enc target)),
      ("originId", origin_id.map Json.str),
      ("arguments", arguments.map Json.str)]⟩,
  ⟨"BuildTargetCompile.new_simple", BuildTargetCompile, BuildTargetIdentifier, BuildTargetCompile.enc, fun target => Api.BuildTargetCompile.new_simple target,
    fun target => [("target", some (BuildTargetIdentifier.enc target)),
      ("originId", none),
      ("arguments", none)]⟩,
  ⟨"BuildTargetCompileResult.new", BuildTargetCompileResult, Option String × UInt64 × Option String × Option Value, BuildTargetCompileResult.enc, fun (origin_id, status_code, data_kind, data) => Api.BuildTargetCompileResult.new origin_id status_code data_kind data,
    fun (origin_id, status_code, data_kind, data) => [("originId", origin_id.map Json.str),
      ("statusCode", some (encUsize status_code)),
      ("dataKind", data_kind.map Json.str),
      ("data", data.map Value.json)]⟩,
  ⟨"BuildTargetCompileResult.new_simple", BuildTargetCompileResult, UInt64, BuildTargetCompileResult.enc, fun status_code => Api.BuildTargetCompileResult.new_simple status_code,
    fun status_code => [("originId", none),
      ("statusCode", some (encUsize status_code)),
      ("dataKind", none),
      ("data", none)]⟩,
  ⟨"BuildTargetDependencyModulesResult.new", BuildTargetDependencyModulesResult, List DependencyModulesItem, BuildTargetDependencyModulesResult.enc, fun items => Api.BuildTargetDependencyModulesResult.new items,
    fun items => [("items", some (encList DependencyModulesItem.enc items))]⟩,
  ⟨"DependencyModulesItem.new", DependencyModulesItem, BuildTargetIdentifier × List DependencyModule, DependencyModulesItem.enc, fun (target, modules) => Api.DependencyModulesItem.new target modules,
    fun (target, modules) => [("target", some (BuildTargetIdentifier.enc target)),
      ("modules", some (encList DependencyModule.enc modules))]⟩,
  ⟨"DependencyModule.new", DependencyModule, String × String × Option String × Option Value, DependencyModule.enc, fun (name, version, data_kind, data) => Api.DependencyModule.new name version data_kind data,
    fun (name, version, data_kind, data) => [("name", some (Json.str name)),
      ("version", some (Json.str version)),
      ("dataKind", some (encOpt Json.str data_kind)),
      ("data", some (encOpt Value.json data))]⟩,
  ⟨"DependencyModule.new_simple", DependencyModule, String × String, DependencyModule.enc, fun (name, version) => Api.DependencyModule.new_simple name version,
    fun (name, version) => [("name", some (Json.str name)),
      ("version", some (Json.str version)),
      ("dataKind", some (.null)),
      ("data", some (.null))]⟩,
  ⟨"BuildTargetDependencySources.new", BuildTargetDependencySources, TextDocumentIdentifier, BuildTargetDependencySources.enc, fun text_document => Api.BuildTargetDependencySources.new text_document,
    fun text_document => [("textDocument", some (TextDocumentIdentifier.enc text_document))]⟩,
  ⟨"BuildTargetEvent.new", BuildTargetEvent, BuildTargetIdentifier × Option BuildTargetEventKind × Option Value, BuildTargetEvent.enc, fun (target, kind, data) => Api.BuildTargetEvent.new target kind data,
    fun (target, kind, data) => [("target", some (BuildTargetIdentifier.enc target)),
      ("kind", kind.map BuildTargetEventKind.enc),
      ("data", data.map Value.json)]⟩,
  ⟨"BuildTargetEvent.new_simple", BuildTargetEvent, BuildTargetIdentifier, BuildTargetEvent.enc, fun target => Api.BuildTargetEvent.new_simple target,
    fun target => [("target", some (BuildTargetIdentifier.enc target)),
      ("kind", none),
      ("data", none)]⟩,
  ⟨"BuildTargetIdentifier.new", BuildTargetIdentifier, Ext.Url, BuildTargetIdentifier.enc, fun uri => Api.BuildTargetIdentifier.new uri,
    fun uri => [("uri", some (encUrl uri))]⟩,
  ⟨"TextDocumentInverseSources.new", TextDocumentInverseSources, TextDocumentIdentifier, TextDocumentInverseSources.enc, fun text_document => Api.TextDocumentInverseSources.new text_document,
    fun text_document => [("textDocument", some (TextDocumentIdentifier.enc text_document))]⟩,
  ⟨"BuildTargetResources.new", BuildTargetResources, List BuildTargetIdentifier, BuildTargetResources.enc, fun targets => Api.BuildTargetResources.new targets,
    fun targets => [("targets", some (encList BuildTargetIdentifier.enc targets))]⟩,
  ⟨"BuildTargetResourcesResult.new", BuildTargetResourcesResult, List Resources, BuildTargetResourcesResult.enc, fun items => Api.BuildTargetResourcesResult.new items,
    fun items => [("items", some (encList Resources.enc items))]⟩,
  ⟨"Resources.new", Resources, BuildTargetIdentifier × List String, Resources.enc, fun (target, resources) => Api.Resources.new target resources,
    fun (target, resources) => [("target", some (BuildTargetIdentifier.enc target)),
      ("resources", some (encList Json.str resources))]⟩,
  ⟨"BuildTargetRun.new", BuildTargetRun, BuildTargetIdentifier × Option String × Option String × Option String × Option Value, BuildTargetRun.enc, fun (target, origin_id, arguments, data_kind, data) => Api.BuildTargetRun.new target origin_id arguments data_kind data,
    fun (target, origin_id, arguments, data_kind, data) => [("target", some (BuildTargetIdentifier.enc target)),
      ("originId", origin_id.map Json.str),
      ("arguments", arguments.map Json.str),
      ("dataKind", data_kind.map Json.str),
      ("data", data.map Value.json)]⟩,
  ⟨"BuildTargetRun.new_simple", BuildTargetRun, BuildTargetIdentifier, BuildTargetRun.enc, fun target => Api.BuildTargetRun.new_simple target,
    fun target => [("target", some (BuildTargetIdentifier.enc target)),
      ("originId", none),
      ("arguments", none),
      ("dataKind", none),
      ("data", none)]⟩,
  ⟨"BuildTargetRunResult.new", BuildTargetRunResult, Option String × UInt64, BuildTargetRunResult.enc, fun (origin_id, status_code) => Api.BuildTargetRunResult.new origin_id status_code,
    fun (origin_id, status_code) => [("originId", origin_id.map Json.str),
      ("statusCode", some (encUsize status_code))]⟩,
  ⟨"BuildTargetSources.new", BuildTargetSources, List BuildTargetIdentifier, BuildTargetSources.enc, fun targets => Api.BuildTargetSources.new targets,
    fun targets => [("targets", some (encList BuildTargetIdentifier.enc targets))]⟩,
  ⟨"BuildTargetSourcesResult.new", BuildTargetSourcesResult, List SourcesCollection, BuildTargetSourcesResult.enc, fun items => Api.BuildTargetSourcesResult.new items,
    fun items => [("items", some (encList SourcesCollection.enc items))]⟩,
  ⟨"SourcesCollection.new", SourcesCollection, BuildTargetIdentifier × List Sources, SourcesCollection.enc, fun (target, sources) => Api.SourcesCollection.new target sources,
    fun (target, sources) => [("target", some (BuildTargetIdentifier.enc target)),
      ("sources", some (encList Sources.enc sources))]⟩,
  ⟨"Sources.new", Sources, Ext.Url × SourceKind × Bool, Sources.enc, fun (uri, kind, generated) => Api.Sources.new uri kind generated,
    fun (uri, kind, generated) => [("uri", some (encUrl uri)),
      ("kind", some (SourceKind.enc kind)),
      ("generated", some (Json.bool generated))]⟩,
  ⟨"BuildTargetTest.new", BuildTargetTest, BuildTargetIdentifier × Option String × Option String × Option String × Option Value, BuildTargetTest.enc, fun (target, origin_id, arguments, data_kind, data) => Api.BuildTargetTest.new target origin_id arguments data_kind data,
    fun (target, origin_id, arguments, data_kind, data) => [("target", some (BuildTargetIdentifier.enc target)),
      ("originId", origin_id.map Json.str),
      ("arguments", arguments.map Json.str),
      ("dataKind", data_kind.map Json.str),
      ("data", data.map Value.json)]⟩,
  ⟨"BuildTargetTest.new_simple", BuildTargetTest, BuildTargetIdentifier, BuildTargetTest.enc, fun target => Api.BuildTargetTest.new_simple target,
    fun target => [("target", some (BuildTargetIdentifier.enc target)),
      ("originId", none),
      ("arguments", none),
      ("dataKind", none),
      ("data", none)]⟩,
  ⟨"BuildTargetTestResult.new", BuildTargetTestResult, Option String × UInt64 × Option String × Option Value, BuildTargetTestResult.enc, fun (origin_id, status_code, data_kind, data) => Api.BuildTargetTestResult.new origin_id status_code data_kind data,
    fun (origin_id, status_code, data_kind, data) => [("originId", origin_id.map Json.str),
      ("statusCode", some (encUsize status_code)),
      ("dataKind", data_kind.map Json.str),
      ("data", data.map Value.json)]⟩,
  ⟨"BuildTargetTestResult.new_simple", BuildTargetTestResult, UInt64, BuildTargetTestResult.enc, fun status_code => Api.BuildTargetTestResult.new_simple status_code,
    fun status_code => [("originId", none),
      ("statusCode", some (encUsize status_code)),
      ("dataKind", none),
      ("data", none)]⟩,
  ⟨"ClientCapabilities.new", ClientCapabilities, List String, ClientCapabilities.enc, fun language_ids => Api.ClientCapabilities.new language_ids,
    fun language_ids => [("languageIds", some (encList Json.str language_ids))]⟩,
  ⟨"DebugSessionStart.new", DebugSessionStart, List BuildTargetIdentifier × String × Value, DebugSessionStart.enc, fun (targets, data_kind, data) => Api.DebugSessionStart.new targets data_kind data,
    fun (targets, data_kind, data) => [("targets", some (encList BuildTargetIdentifier.enc targets)),
      ("dataKind", some (Json.str data_kind)),
      ("data", if data = Value.null then none else some data.json)]⟩,
  ⟨"DebugSessionStartResult.new", DebugSessionStartResult, Ext.Url, DebugSessionStartResult.enc, fun uri => Api.DebugSessionStartResult.new uri,
    fun uri => [("uri", some (encUrl uri))]⟩,
  ⟨"InitializeBuild.new", InitializeBuild, String × String × String × Ext.Url × ClientCapabilities × Value, InitializeBuild.enc, fun (display_name, version, bsp_version, root_uri, capabilities, data) => Api.InitializeBuild.new display_name version bsp_version root_uri capabilities data,
    fun (display_name, version, bsp_version, root_uri, capabilities, data) => [("displayName", some (Json.str display_name)),
      ("version", if version = "" then none else some (Json.str version)),
      ("bspVersion", if bsp_version = "" then none else some (Json.str bsp_version)),
      ("rootUri", some (encUrl root_uri)),
      ("capabilities", some (ClientCapabilities.enc capabilities)),
      ("data", some data.json)]⟩,
  ⟨"InitializeBuild.new_simple", InitializeBuild, String × String × String × Ext.Url × ClientCapabilities, InitializeBuild.enc, fun (display_name, version, bsp_version, root_uri, capabilities) => Api.InitializeBuild.new_simple display_name version bsp_version root_uri capabilities,
    fun (display_name, version, bsp_version, root_uri, capabilities) => [("displayName", some (Json.str display_name)),
      ("version", if version = "" then none else some (Json.str version)),
      ("bspVersion", if bsp_version = "" then none else some (Json.str bsp_version)),
      ("rootUri", some (encUrl root_uri)),
      ("capabilities", some (ClientCapabilities.enc capabilities)),
      ("data", none)]⟩,
  ⟨"InitializeBuildResult.new", InitializeBuildResult, String × String × String × ServerCapabilities × Value, InitializeBuildResult.enc, fun (display_name, version, bsp_version, capabilities, data) => Api.InitializeBuildResult.new display_name version bsp_version capabilities data,
    fun (display_name, version, bsp_version, capabilities, data) => [("displayName", some (Json.str display_name)),
      ("version", some (Json.str version)),
      ("bspVersion", some (Json.str bsp_version)),
      ("capabilities", some (ServerCapabilities.enc capabilities)),
      ("data", some data.json)]⟩,
  ⟨"InitializeBuildResult.new_simple", InitializeBuildResult, String × String × String × ServerCapabilities, InitializeBuildResult.enc, fun (display_name, version, bsp_version, capabilities) => Api.InitializeBuildResult.new_simple display_name version bsp_version capabilities,
    fun (display_name, version, bsp_version, capabilities) => [("displayName", some (Json.str display_name)),
      ("version", some (Json.str version)),
      ("bspVersion", some (Json.str bsp_version)),
      ("capabilities", some (ServerCapabilities.enc capabilities)),
      ("data", none)]⟩,
  ⟨"LogMessage.new", LogMessage, MessageType × String × Option TaskId × Option String, LogMessage.enc, fun (typ, msg, task, orid) => Api.LogMessage.new typ msg task orid,
    fun (typ, msg, task, orid) => [("type", some (MessageType.enc typ)),
      ("task", task.map TaskId.enc),
      ("originId", orid.map Json.str),
      ("message", some (Json.str msg))]⟩,
  ⟨"LogMessage.info", LogMessage, String × Option TaskId × Option String, LogMessage.enc, fun (msg, task, orid) => Api.LogMessage.info msg task orid,
    fun (msg, task, orid) => [("type", some (.int 3)),
      ("task", task.map TaskId.enc),
      ("originId", orid.map Json.str),
      ("message", some (Json.str msg))]⟩,
  ⟨"LogMessage.log", LogMessage, String × Option TaskId × Option String, LogMessage.enc, fun (msg, task, orid) => Api.LogMessage.log msg task orid,
    fun (msg, task, orid) => [("type", some (.int 4)),
      ("task", task.map TaskId.enc),
      ("originId", orid.map Json.str),
      ("message", some (Json.str msg))]⟩,
  ⟨"LogMessage.warn", LogMessage, String × Option TaskId × Option String, LogMessage.enc, fun (msg, task, orid) => Api.LogMessage.warn msg task orid,
    fun (msg, task, orid) => [("type", some (.int 2)),
      ("task", task.map TaskId.enc),
      ("originId", orid.map Json.str),
      ("message", some (Json.str msg))]⟩,
  ⟨"LogMessage.error", LogMessage, String × Option TaskId × Option String, LogMessage.enc, fun (msg, task, orid) => Api.LogMessage.error msg task orid,
    fun (msg, task, orid) => [("type", some (.int 1)),
      ("task", task.map TaskId.enc),
      ("originId", orid.map Json.str),
      ("message", some (Json.str msg))]⟩,
  ⟨"ShowMessage.new", ShowMessage, MessageType × String × Option TaskId × Option String, ShowMessage.enc, fun (typ, msg, task, orid) => Api.ShowMessage.new typ msg task orid,
    fun (typ, msg, task, orid) => [("type", some (MessageType.enc typ)),
      ("message", some (Json.str msg)),
      ("task", task.map TaskId.enc),
      ("originId", orid.map Json.str)]⟩,
  ⟨"ShowMessage.info", ShowMessage, String × Option TaskId × Option String, ShowMessage.enc, fun (msg, task, orid) => Api.ShowMessage.info msg task orid,
    fun (msg, task, orid) => [("type", some (.int 3)),
      ("message", some (Json.str msg)),
      ("task", task.map TaskId.enc),
      ("originId", orid.map Json.str)]⟩,
  ⟨"ShowMessage.log", ShowMessage, String × Option TaskId × Option String, ShowMessage.enc, fun (msg, task, orid) => Api.ShowMessage.log msg task orid,
    fun (msg, task, orid) => [("type", some (.int 4)),
      ("message", some (Json.str msg)),
      ("task", task.map TaskId.enc),
      ("originId", orid.map Json.str)]⟩,
  ⟨"ShowMessage.warn", ShowMessage, String × Option TaskId × Option String, ShowMessage.enc, fun (msg, task, orid) => Api.ShowMessage.warn msg task orid,
    fun (msg, task, orid) => [("type", some (.int 2)),
      ("message", some (Json.str msg)),
      ("task", task.map TaskId.enc),
      ("originId", orid.map Json.str)]⟩,
  ⟨"ShowMessage.error", ShowMessage, String × Option TaskId × Option String, ShowMessage.enc, fun (msg, task, orid) => Api.ShowMessage.error msg task orid,
    fun (msg, task, orid) => [("type", some (.int 1)),
      ("message", some (Json.str msg)),
      ("task", task.map TaskId.enc),
      ("originId", orid.map Json.str)]⟩,
  ⟨"TaskFinish.new", TaskFinish, TaskId, TaskFinish.enc, fun task_id => Api.TaskFinish.new task_id,
    fun task_id => [("taskId", some (TaskId.enc task_id)),
      ("eventTime", none),
      ("message", none),
      ("status", some (.int 1)),
      ("dataKind", none),
      ("data", none)]⟩,
  ⟨"TaskId.from", TaskId, String, TaskId.enc, fun id => Api.TaskId.from_string id,
    fun id => [("id", some (Json.str id)),
      ("parents", none)]⟩,
  ⟨"TaskId.from", TaskId, String, TaskId.enc, fun id => Api.TaskId.from_str id,
    fun id => [("id", some (Json.str id)),
      ("parents", none)]⟩,
  ⟨"TaskId.new", TaskId, String × List String, TaskId.enc, fun (id, parents) => Api.TaskId.new id parents,
    fun (id, parents) => [("id", some (Json.str id)),
      ("parents", if parents = [] then none else some (encList Json.str parents))]⟩,
  ⟨"TaskStart.new", TaskStart, TaskId, TaskStart.enc, fun task_id => Api.TaskStart.new task_id,
    fun task_id => [("taskId", some (TaskId.enc task_id)),
      ("eventTime", none),
      ("message", none),
      ("dataKind", none),
      ("data", none)]⟩,
  ⟨"BuildTarget.new", BuildTarget, BuildTargetIdentifier × Option String × Option String × List BuildTargetTag × BuildTargetCapabilities × List String × List BuildTargetIdentifier, BuildTarget.enc, fun (id, display_name, base_directory, tags, capabilities, language_ids, dependencies) => Api.BuildTarget.new id display_name base_directory tags capabilities language_ids dependencies,
    fun (id, display_name, base_directory, tags, capabilities, language_ids, dependencies) => [("id", some (BuildTargetIdentifier.enc id)),
      ("displayName", display_name.map Json.str),
      ("baseDirectory", base_directory.map Json.str),
      ("tags", some (encList BuildTargetTag.enc tags)),
      ("capabilities", some (BuildTargetCapabilities.enc capabilities)),
      ("languageIds", some (encList Json.str language_ids)),
      ("dependencies", some (encList BuildTargetIdentifier.enc dependencies))]⟩,
  ⟨"BuildTarget.new_simple", BuildTarget, BuildTargetIdentifier × List BuildTargetTag × BuildTargetCapabilities × List String × List BuildTargetIdentifier, BuildTarget.enc, fun (id, tags, capabilities, language_ids, dependencies) => Api.BuildTarget.new_simple id tags capabilities language_ids dependencies,
    fun (id, tags, capabilities, language_ids, dependencies) => [("id", some (BuildTargetIdentifier.enc id)),
      ("displayName", none),
      ("baseDirectory", none),
      ("tags", some (encList BuildTargetTag.enc tags)),
      ("capabilities", some (BuildTargetCapabilities.enc capabilities)),
      ("languageIds", some (encList Json.str language_ids)),
      ("dependencies", some (encList BuildTargetIdentifier.enc dependencies))]⟩,
  ⟨"WorkspaceBuildTargetsResult.new", WorkspaceBuildTargetsResult, List BuildTarget, WorkspaceBuildTargetsResult.enc, fun targets => Api.WorkspaceBuildTargetsResult.new targets,
    fun targets => [("targets", some (encList BuildTarget.enc targets))]⟩,
  ⟨"WorkspaceBuildTargetsResult.from", WorkspaceBuildTargetsResult, BuildTarget, WorkspaceBuildTargetsResult.enc, fun target => Api.WorkspaceBuildTargetsResult.from_buildTarget target,
    fun target => [("targets", some (.arr [BuildTarget.enc target]))]⟩]

end Spec
open Spec (member)

theorem member_obj_append (k : String) (a b : Members) :
    member k (.obj (a ++ b)) = (member k (.obj a)).or (member k (.obj b)) := by
  simp only [member, List.find?_append]
  cases h : List.find? (fun m => decide (m.1 = k)) a <;> simp

theorem member_fld (k k' : String) (j : Json) : member k' (.obj (fld k j)) = if k' = k then some j else none := by
  by_cases h : k' = k
  · simp [member, fld, h]
  · have : k ≠ k' := fun e => h e.symm
    simp [member, fld, h, this]

theorem member_skipNone (k k' : String) (enc : α → Json) (o : Option α) :
    member k' (.obj (skipNone k enc o)) = if k' = k then o.map enc else none := by
  cases o with
  | none => simp [member, skipNone]
  | some x => simpa [fld, skipNone] using member_fld k k' (enc x)

theorem member_skipIf (k k' : String) (c : Bool) (j : Json) :
    member k' (.obj (skipIf c k j)) = if k' = k then (if c then none else some j) else none := by
  cases c with
  | true => simp [member, skipIf]
  | false => simpa [fld, skipIf] using member_fld k k' j

theorem value_isNull (v : Value) : v.isNull = decide (v = Value.null) := by
  have := v.isNull_iff
  cases h : v.isNull <;> simp_all

theorem kind_isNone (v : TaskDataKind) : v.isNone = decide (v = TaskDataKind.none) := by
  cases v <;> simp [TaskDataKind.isNone]

/-- One member, if it is written. -/
def Spec.mem (k : String) (o : Option Json) : Members := o.toList.map (k, ·)

theorem fld_mem (k : String) (j : Json) : fld k j = Spec.mem k (some j) := rfl
theorem skipNone_mem' (k : String) (enc : α → Json) (o : Option α) : skipNone k enc o = Spec.mem k (o.map enc) := by
  cases o <;> rfl
theorem skipIf_mem' (k : String) (c : Bool) (j : Json) :
    skipIf c k j = Spec.mem k (if c = true then none else some j) := by
  cases c <;> rfl
theorem mems_cons (k : String) (o : Option Json) (l : List (String × Option Json)) :
    ((k, o) :: l).filterMap (fun m => m.2.map (m.1, ·)) =
      Spec.mem k o ++ l.filterMap (fun m => m.2.map (m.1, ·)) := by
  cases o <;> simp [Spec.mem]
theorem mems_nil : ([] : List (String × Option Json)).filterMap (fun m => m.2.map (m.1, ·)) = [] := rfl
theorem mem_none (k : String) : Spec.mem k none = [] := rfl

theorem set_BuildTargetCapabilities_set_can_compile [Ext] (x : BuildTargetCapabilities) (v) (k : String) :
    member k (BuildTargetCapabilities.enc (Api.BuildTargetCapabilities.set_can_compile x v)) = if k = "canCompile" then some (Json.bool v) else member k (BuildTargetCapabilities.enc x) := by
  simp only [BuildTargetCapabilities.enc, Api.BuildTargetCapabilities.set_can_compile, member_obj_append, member_fld, member_skipNone, member_skipIf]
  by_cases h : k = "canCompile"
  · subst h; simp [value_isNull, kind_isNone]
  · simp [h]

theorem set_BuildTargetCapabilities_set_can_test [Ext] (x : BuildTargetCapabilities) (v) (k : String) :
    member k (BuildTargetCapabilities.enc (Api.BuildTargetCapabilities.set_can_test x v)) = if k = "canTest" then some (Json.bool v) else member k (BuildTargetCapabilities.enc x) := by
  simp only [BuildTargetCapabilities.enc, Api.BuildTargetCapabilities.set_can_test, member_obj_append, member_fld, member_skipNone, member_skipIf]
  by_cases h : k = "canTest"
  · subst h; simp [value_isNull, kind_isNone]
  · simp [h]

theorem set_BuildTargetCapabilities_set_can_run [Ext] (x : BuildTargetCapabilities) (v) (k : String) :
    member k (BuildTargetCapabilities.enc (Api.BuildTargetCapabilities.set_can_run x v)) = if k = "canRun" then some (Json.bool v) else member k (BuildTargetCapabilities.enc x) := by
  simp only [BuildTargetCapabilities.enc, Api.BuildTargetCapabilities.set_can_run, member_obj_append, member_fld, member_skipNone, member_skipIf]
  by_cases h : k = "canRun"
  · subst h; simp [value_isNull, kind_isNone]
  · simp [h]

theorem set_BuildTargetCapabilities_set_can_debug [Ext] (x : BuildTargetCapabilities) (v) (k : String) :
    member k (BuildTargetCapabilities.enc (Api.BuildTargetCapabilities.set_can_debug x v)) = if k = "canDebug" then some (Json.bool v) else member k (BuildTargetCapabilities.enc x) := by
  simp only [BuildTargetCapabilities.enc, Api.BuildTargetCapabilities.set_can_debug, member_obj_append, member_fld, member_skipNone, member_skipIf]
  by_cases h : k = "canDebug"
  · subst h; simp [value_isNull, kind_isNone]
  · simp [h]

theorem set_BuildTargetCleanCache_targets_mut [Ext] (x : BuildTargetCleanCache) (v) (k : String) :
    member k (BuildTargetCleanCache.enc (Api.BuildTargetCleanCache.targets_mut x v)) = if k = "targets" then some (encList BuildTargetIdentifier.enc v) else member k (BuildTargetCleanCache.enc x) := by
  simp only [BuildTargetCleanCache.enc, Api.BuildTargetCleanCache.targets_mut, member_obj_append, member_fld, member_skipNone, member_skipIf]
  by_cases h : k = "targets"
  · subst h; simp [value_isNull, kind_isNone]
  · simp [h]

theorem set_BuildTargetCleanCache_set_targets [Ext] (x : BuildTargetCleanCache) (v) (k : String) :
    member k (BuildTargetCleanCache.enc (Api.BuildTargetCleanCache.set_targets x v)) = if k = "targets" then some (encList BuildTargetIdentifier.enc v) else member k (BuildTargetCleanCache.enc x) := by
  simp only [BuildTargetCleanCache.enc, Api.BuildTargetCleanCache.set_targets, member_obj_append, member_fld, member_skipNone, member_skipIf]
  by_cases h : k = "targets"
  · subst h; simp [value_isNull, kind_isNone]
  · simp [h]

theorem set_BuildTargetCleanCacheResult_set_cleaned [Ext] (x : BuildTargetCleanCacheResult) (v) (k : String) :
    member k (BuildTargetCleanCacheResult.enc (Api.BuildTargetCleanCacheResult.set_cleaned x v)) = if k = "cleaned" then some (Json.bool v) else member k (BuildTargetCleanCacheResult.enc x) := by
  simp only [BuildTargetCleanCacheResult.enc, Api.BuildTargetCleanCacheResult.set_cleaned, member_obj_append, member_fld, member_skipNone, member_skipIf]
  by_cases h : k = "cleaned"
  · subst h; simp [value_isNull, kind_isNone]
  · simp [h]

theorem set_BuildTargetCleanCacheResult_set_message [Ext] (x : BuildTargetCleanCacheResult) (v) (k : String) :
    member k (BuildTargetCleanCacheResult.enc (Api.BuildTargetCleanCacheResult.set_message x v)) = if k = "message" then v.map Json.str else member k (BuildTargetCleanCacheResult.enc x) := by
  simp only [BuildTargetCleanCacheResult.enc, Api.BuildTargetCleanCacheResult.set_message, member_obj_append, member_fld, member_skipNone, member_skipIf]
  by_cases h : k = "message"
  · subst h; simp [value_isNull, kind_isNone]
  · simp [h]

theorem set_BuildTargetCompile_set_target [Ext] (x : BuildTargetCompile) (v) (k : String) :
    member k (BuildTargetCompile.enc (Api.BuildTargetCompile.set_target x v)) = if k = "target" then some (BuildTargetIdentifier.enc v) else member k (BuildTargetCompile.enc x) := by
  simp only [BuildTargetCompile.enc, Api.BuildTargetCompile.set_target, member_obj_append, member_fld, member_skipNone, member_skipIf]
  by_cases h : k = "target"
  · subst h; simp [value_isNull, kind_isNone]
  · simp [h]

theorem set_BuildTargetCompile_set_origin_id [Ext] (x : BuildTargetCompile) (v) (k : String) :
    member k (BuildTargetCompile.enc (Api.BuildTargetCompile.set_origin_id x v)) = if k = "originId" then v.map Json.str else member k (BuildTargetCompile.enc x) := by
  simp only [BuildTargetCompile.enc, Api.BuildTargetCompile.set_origin_id, member_obj_append, member_fld, member_skipNone, member_skipIf]
  by_cases h : k = "originId"
  · subst h; simp [value_isNull, kind_isNone]
  · simp [h]

theorem set_BuildTargetCompile_set_arguments [Ext] (x : BuildTargetCompile) (v) (k : String) :
    member k (BuildTargetCompile.enc (Api.BuildTargetCompile.set_arguments x v)) = if k = "arguments" then v.map Json.str else member k (BuildTargetCompile.enc x) := by
  simp only [BuildTargetCompile.enc, Api.BuildTargetCompile.set_arguments, member_obj_append, member_fld, member_skipNone, member_skipIf]
  by_cases h : k = "arguments"
  · subst h; simp [value_isNull, kind_isNone]
  · simp [h]

theorem set_BuildTargetCompileResult_set_origin_id [Ext] (x : BuildTargetCompileResult) (v) (k : String) :
    member k (BuildTargetCompileResult.enc (Api.BuildTargetCompileResult.set_origin_id x v)) = if k = "originId" then v.map Json.str else member k (BuildTargetCompileResult.enc x) := by
  simp only [BuildTargetCompileResult.enc, Api.BuildTargetCompileResult.set_origin_id, member_obj_append, member_fld, member_skipNone, member_skipIf]
  by_cases h : k = "originId"
  · subst h; simp [value_isNull, kind_isNone]
  · simp [h]

theorem set_BuildTargetCompileResult_set_status_code [Ext] (x : BuildTargetCompileResult) (v) (k : String) :
    member k (BuildTargetCompileResult.enc (Api.BuildTargetCompileResult.set_status_code x v)) = if k = "statusCode" then some (encUsize v) else member k (BuildTargetCompileResult.enc x) := by
  simp only [BuildTargetCompileResult.enc, Api.BuildTargetCompileResult.set_status_code, member_obj_append, member_fld, member_skipNone, member_skipIf]
  by_cases h : k = "statusCode"
  · subst h; simp [value_isNull, kind_isNone]
  · simp [h]

theorem set_BuildTargetCompileResult_set_data_kind [Ext] (x : BuildTargetCompileResult) (v) (k : String) :
    member k (BuildTargetCompileResult.enc (Api.BuildTargetCompileResult.set_data_kind x v)) = if k = "dataKind" then v.map Json.str else member k (BuildTargetCompileResult.enc x) := by
  simp only [BuildTargetCompileResult.enc, Api.BuildTargetCompileResult.set_data_kind, member_obj_append, member_fld, member_skipNone, member_skipIf]
  by_cases h : k = "dataKind"
  · subst h; simp [value_isNull, kind_isNone]
  · simp [h]

theorem set_BuildTargetCompileResult_set_data [Ext] (x : BuildTargetCompileResult) (v) (k : String) :
    member k (BuildTargetCompileResult.enc (Api.BuildTargetCompileResult.set_data x v)) = if k = "data" then v.map Value.json else member k (BuildTargetCompileResult.enc x) := by
  simp only [BuildTargetCompileResult.enc, Api.BuildTargetCompileResult.set_data, member_obj_append, member_fld, member_skipNone, member_skipIf]
  by_cases h : k = "data"
  · subst h; simp [value_isNull, kind_isNone]
  · simp [h]

theorem set_BuildTargetDependencyModules_targets_mut [Ext] (x : BuildTargetDependencyModules) (v) (k : String) :
    member k (BuildTargetDependencyModules.enc (Api.BuildTargetDependencyModules.targets_mut x v)) = if k = "targets" then some (encList BuildTargetIdentifier.enc v) else member k (BuildTargetDependencyModules.enc x) := by
  simp only [BuildTargetDependencyModules.enc, Api.BuildTargetDependencyModules.targets_mut, member_obj_append, member_fld, member_skipNone, member_skipIf]
  by_cases h : k = "targets"
  · subst h; simp [value_isNull, kind_isNone]
  · simp [h]

theorem set_BuildTargetDependencyModules_set_targets [Ext] (x : BuildTargetDependencyModules) (v) (k : String) :
    member k (BuildTargetDependencyModules.enc (Api.BuildTargetDependencyModules.set_targets x v)) = if k = "targets" then some (encList BuildTargetIdentifier.enc v) else member k (BuildTargetDependencyModules.enc x) := by
  simp only [BuildTargetDependencyModules.enc, Api.BuildTargetDependencyModules.set_targets, member_obj_append, member_fld, member_skipNone, member_skipIf]
  by_cases h : k = "targets"
  · subst h; simp [value_isNull, kind_isNone]
  · simp [h]

theorem set_BuildTargetDependencyModulesResult_items_mut [Ext] (x : BuildTargetDependencyModulesResult) (v) (k : String) :
    member k (BuildTargetDependencyModulesResult.enc (Api.BuildTargetDependencyModulesResult.items_mut x v)) = if k = "items" then some (encList DependencyModulesItem.enc v) else member k (BuildTargetDependencyModulesResult.enc x) := by
  simp only [BuildTargetDependencyModulesResult.enc, Api.BuildTargetDependencyModulesResult.items_mut, member_obj_append, member_fld, member_skipNone, member_skipIf]
  by_cases h : k = "items"
  · subst h; simp [value_isNull, kind_isNone]
  · simp [h]

theorem set_DependencyModulesItem_set_modules [Ext] (x : DependencyModulesItem) (v) (k : String) :
    member k (DependencyModulesItem.enc (Api.DependencyModulesItem.set_modules x v)) = if k = "modules" then some (encList DependencyModule.enc v) else member k (DependencyModulesItem.enc x) := by
  simp only [DependencyModulesItem.enc, Api.DependencyModulesItem.set_modules, member_obj_append, member_fld, member_skipNone, member_skipIf]
  by_cases h : k = "modules"
  · subst h; simp [value_isNull, kind_isNone]
  · simp [h]

theorem set_DependencyModule_set_name [Ext] (x : DependencyModule) (v) (k : String) :
    member k (DependencyModule.enc (Api.DependencyModule.set_name x v)) = if k = "name" then some (Json.str v) else member k (DependencyModule.enc x) := by
  simp only [DependencyModule.enc, Api.DependencyModule.set_name, member_obj_append, member_fld, member_skipNone, member_skipIf]
  by_cases h : k = "name"
  · subst h; simp [value_isNull, kind_isNone]
  · simp [h]

theorem set_DependencyModule_set_version [Ext] (x : DependencyModule) (v) (k : String) :
    member k (DependencyModule.enc (Api.DependencyModule.set_version x v)) = if k = "version" then some (Json.str v) else member k (DependencyModule.enc x) := by
  simp only [DependencyModule.enc, Api.DependencyModule.set_version, member_obj_append, member_fld, member_skipNone, member_skipIf]
  by_cases h : k = "version"
  · subst h; simp [value_isNull, kind_isNone]
  · simp [h]

theorem set_DependencyModule_set_data_kind [Ext] (x : DependencyModule) (v) (k : String) :
    member k (DependencyModule.enc (Api.DependencyModule.set_data_kind x v)) = if k = "dataKind" then some (encOpt Json.str v) else member k (DependencyModule.enc x) := by
  simp only [DependencyModule.enc, Api.DependencyModule.set_data_kind, member_obj_append, member_fld, member_skipNone, member_skipIf]
  by_cases h : k = "dataKind"
  · subst h; simp [value_isNull, kind_isNone]
  · simp [h]

theorem set_BuildTargetDependencySources_set_text_document [Ext] (x : BuildTargetDependencySources) (v) (k : String) :
    member k (BuildTargetDependencySources.enc (Api.BuildTargetDependencySources.set_text_document x v)) = if k = "textDocument" then some (TextDocumentIdentifier.enc v) else member k (BuildTargetDependencySources.enc x) := by
  simp only [BuildTargetDependencySources.enc, Api.BuildTargetDependencySources.set_text_document, member_obj_append, member_fld, member_skipNone, member_skipIf]
  by_cases h : k = "textDocument"
  · subst h; simp [value_isNull, kind_isNone]
  · simp [h]

theorem set_DependencySourcesItem_set_target [Ext] (x : DependencySourcesItem) (v) (k : String) :
    member k (DependencySourcesItem.enc (Api.DependencySourcesItem.set_target x v)) = if k = "target" then some (BuildTargetIdentifier.enc v) else member k (DependencySourcesItem.enc x) := by
  simp only [DependencySourcesItem.enc, Api.DependencySourcesItem.set_target, member_obj_append, member_fld, member_skipNone, member_skipIf]
  by_cases h : k = "target"
  · subst h; simp [value_isNull, kind_isNone]
  · simp [h]

theorem set_DependencySourcesItem_set_sources [Ext] (x : DependencySourcesItem) (v) (k : String) :
    member k (DependencySourcesItem.enc (Api.DependencySourcesItem.set_sources x v)) = if k = "sources" then some (encList Json.str v) else member k (DependencySourcesItem.enc x) := by
  simp only [DependencySourcesItem.enc, Api.DependencySourcesItem.set_sources, member_obj_append, member_fld, member_skipNone, member_skipIf]
  by_cases h : k = "sources"
  · subst h; simp [value_isNull, kind_isNone]
  · simp [h]

theorem set_BuildTargetIdentifier_set_uri [Ext] (x : BuildTargetIdentifier) (v) (k : String) :
    member k (BuildTargetIdentifier.enc (Api.BuildTargetIdentifier.set_uri x v)) = if k = "uri" then some (encUrl v) else member k (BuildTargetIdentifier.enc x) := by
  simp only [BuildTargetIdentifier.enc, Api.BuildTargetIdentifier.set_uri, member_obj_append, member_fld, member_skipNone, member_skipIf]
  by_cases h : k = "uri"
  · subst h; simp [value_isNull, kind_isNone]
  · simp [h]

theorem set_TextDocumentInverseSources_set_text_document [Ext] (x : TextDocumentInverseSources) (v) (k : String) :
    member k (TextDocumentInverseSources.enc (Api.TextDocumentInverseSources.set_text_document x v)) = if k = "textDocument" then some (TextDocumentIdentifier.enc v) else member k (TextDocumentInverseSources.enc x) := by
  simp only [TextDocumentInverseSources.enc, Api.TextDocumentInverseSources.set_text_document, member_obj_append, member_fld, member_skipNone, member_skipIf]
  by_cases h : k = "textDocument"
  · subst h; simp [value_isNull, kind_isNone]
  · simp [h]

theorem set_BuildTargetResources_set_targets [Ext] (x : BuildTargetResources) (v) (k : String) :
    member k (BuildTargetResources.enc (Api.BuildTargetResources.set_targets x v)) = if k = "targets" then some (encList BuildTargetIdentifier.enc v) else member k (BuildTargetResources.enc x) := by
  simp only [BuildTargetResources.enc, Api.BuildTargetResources.set_targets, member_obj_append, member_fld, member_skipNone, member_skipIf]
  by_cases h : k = "targets"
  · subst h; simp [value_isNull, kind_isNone]
  · simp [h]

theorem set_BuildTargetResources_targets_mut [Ext] (x : BuildTargetResources) (v) (k : String) :
    member k (BuildTargetResources.enc (Api.BuildTargetResources.targets_mut x v)) = if k = "targets" then some (encList BuildTargetIdentifier.enc v) else member k (BuildTargetResources.enc x) := by
  simp only [BuildTargetResources.enc, Api.BuildTargetResources.targets_mut, member_obj_append, member_fld, member_skipNone, member_skipIf]
  by_cases h : k = "targets"
  · subst h; simp [value_isNull, kind_isNone]
  · simp [h]

theorem set_BuildTargetResourcesResult_items_mut [Ext] (x : BuildTargetResourcesResult) (v) (k : String) :
    member k (BuildTargetResourcesResult.enc (Api.BuildTargetResourcesResult.items_mut x v)) = if k = "items" then some (encList Resources.enc v) else member k (BuildTargetResourcesResult.enc x) := by
  simp only [BuildTargetResourcesResult.enc, Api.BuildTargetResourcesResult.items_mut, member_obj_append, member_fld, member_skipNone, member_skipIf]
  by_cases h : k = "items"
  · subst h; simp [value_isNull, kind_isNone]
  · simp [h]

theorem set_Resources_set_target [Ext] (x : Resources) (v) (k : String) :
    member k (Resources.enc (Api.Resources.set_target x v)) = if k = "target" then some (BuildTargetIdentifier.enc v) else member k (Resources.enc x) := by
  simp only [Resources.enc, Api.Resources.set_target, member_obj_append, member_fld, member_skipNone, member_skipIf]
  by_cases h : k = "target"
  · subst h; simp [value_isNull, kind_isNone]
  · simp [h]

theorem set_Resources_set_resources [Ext] (x : Resources) (v) (k : String) :
    member k (Resources.enc (Api.Resources.set_resources x v)) = if k = "resources" then some (encList Json.str v) else member k (Resources.enc x) := by
  simp only [Resources.enc, Api.Resources.set_resources, member_obj_append, member_fld, member_skipNone, member_skipIf]
  by_cases h : k = "resources"
  · subst h; simp [value_isNull, kind_isNone]
  · simp [h]

theorem set_BuildTargetRun_set_target [Ext] (x : BuildTargetRun) (v) (k : String) :
    member k (BuildTargetRun.enc (Api.BuildTargetRun.set_target x v)) = if k = "target" then some (BuildTargetIdentifier.enc v) else member k (BuildTargetRun.enc x) := by
  simp only [BuildTargetRun.enc, Api.BuildTargetRun.set_target, member_obj_append, member_fld, member_skipNone, member_skipIf]
  by_cases h : k = "target"
  · subst h; simp [value_isNull, kind_isNone]
  · simp [h]

theorem set_BuildTargetRun_set_origin_id [Ext] (x : BuildTargetRun) (v) (k : String) :
    member k (BuildTargetRun.enc (Api.BuildTargetRun.set_origin_id x v)) = if k = "originId" then v.map Json.str else member k (BuildTargetRun.enc x) := by
  simp only [BuildTargetRun.enc, Api.BuildTargetRun.set_origin_id, member_obj_append, member_fld, member_skipNone, member_skipIf]
  by_cases h : k = "originId"
  · subst h; simp [value_isNull, kind_isNone]
  · simp [h]

theorem set_BuildTargetRun_set_arguments [Ext] (x : BuildTargetRun) (v) (k : String) :
    member k (BuildTargetRun.enc (Api.BuildTargetRun.set_arguments x v)) = if k = "arguments" then v.map Json.str else member k (BuildTargetRun.enc x) := by
  simp only [BuildTargetRun.enc, Api.BuildTargetRun.set_arguments, member_obj_append, member_fld, member_skipNone, member_skipIf]
  by_cases h : k = "arguments"
  · subst h; simp [value_isNull, kind_isNone]
  · simp [h]

theorem set_BuildTargetRun_set_data_kind [Ext] (x : BuildTargetRun) (v) (k : String) :
    member k (BuildTargetRun.enc (Api.BuildTargetRun.set_data_kind x v)) = if k = "dataKind" then v.map Json.str else member k (BuildTargetRun.enc x) := by
  simp only [BuildTargetRun.enc, Api.BuildTargetRun.set_data_kind, member_obj_append, member_fld, member_skipNone, member_skipIf]
  by_cases h : k = "dataKind"
  · subst h; simp [value_isNull, kind_isNone]
  · simp [h]

theorem set_BuildTargetRun_set_data [Ext] (x : BuildTargetRun) (v) (k : String) :
    member k (BuildTargetRun.enc (Api.BuildTargetRun.set_data x v)) = if k = "data" then v.map Value.json else member k (BuildTargetRun.enc x) := by
  simp only [BuildTargetRun.enc, Api.BuildTargetRun.set_data, member_obj_append, member_fld, member_skipNone, member_skipIf]
  by_cases h : k = "data"
  · subst h; simp [value_isNull, kind_isNone]
  · simp [h]

theorem set_BuildTargetRunResult_set_origin_id [Ext] (x : BuildTargetRunResult) (v) (k : String) :
    member k (BuildTargetRunResult.enc (Api.BuildTargetRunResult.set_origin_id x v)) = if k = "originId" then v.map Json.str else member k (BuildTargetRunResult.enc x) := by
  simp only [BuildTargetRunResult.enc, Api.BuildTargetRunResult.set_origin_id, member_obj_append, member_fld, member_skipNone, member_skipIf]
  by_cases h : k = "originId"
  · subst h; simp [value_isNull, kind_isNone]
  · simp [h]

theorem set_BuildTargetRunResult_set_status_code [Ext] (x : BuildTargetRunResult) (v) (k : String) :
    member k (BuildTargetRunResult.enc (Api.BuildTargetRunResult.set_status_code x v)) = if k = "statusCode" then some (encUsize v) else member k (BuildTargetRunResult.enc x) := by
  simp only [BuildTargetRunResult.enc, Api.BuildTargetRunResult.set_status_code, member_obj_append, member_fld, member_skipNone, member_skipIf]
  by_cases h : k = "statusCode"
  · subst h; simp [value_isNull, kind_isNone]
  · simp [h]

theorem set_BuildTargetSources_set_targets [Ext] (x : BuildTargetSources) (v) (k : String) :
    member k (BuildTargetSources.enc (Api.BuildTargetSources.set_targets x v)) = if k = "targets" then some (encList BuildTargetIdentifier.enc v) else member k (BuildTargetSources.enc x) := by
  simp only [BuildTargetSources.enc, Api.BuildTargetSources.set_targets, member_obj_append, member_fld, member_skipNone, member_skipIf]
  by_cases h : k = "targets"
  · subst h; simp [value_isNull, kind_isNone]
  · simp [h]

theorem set_BuildTargetSourcesResult_set_items [Ext] (x : BuildTargetSourcesResult) (v) (k : String) :
    member k (BuildTargetSourcesResult.enc (Api.BuildTargetSourcesResult.set_items x v)) = if k = "items" then some (encList SourcesCollection.enc v) else member k (BuildTargetSourcesResult.enc x) := by
  simp only [BuildTargetSourcesResult.enc, Api.BuildTargetSourcesResult.set_items, member_obj_append, member_fld, member_skipNone, member_skipIf]
  by_cases h : k = "items"
  · subst h; simp [value_isNull, kind_isNone]
  · simp [h]

theorem set_SourcesCollection_set_target [Ext] (x : SourcesCollection) (v) (k : String) :
    member k (SourcesCollection.enc (Api.SourcesCollection.set_target x v)) = if k = "target" then some (BuildTargetIdentifier.enc v) else member k (SourcesCollection.enc x) := by
  simp only [SourcesCollection.enc, Api.SourcesCollection.set_target, member_obj_append, member_fld, member_skipNone, member_skipIf]
  by_cases h : k = "target"
  · subst h; simp [value_isNull, kind_isNone]
  · simp [h]

theorem set_SourcesCollection_set_sources [Ext] (x : SourcesCollection) (v) (k : String) :
    member k (SourcesCollection.enc (Api.SourcesCollection.set_sources x v)) = if k = "sources" then some (encList Sources.enc v) else member k (SourcesCollection.enc x) := by
  simp only [SourcesCollection.enc, Api.SourcesCollection.set_sources, member_obj_append, member_fld, member_skipNone, member_skipIf]
  by_cases h : k = "sources"
  · subst h; simp [value_isNull, kind_isNone]
  · simp [h]

theorem set_Sources_set_kind [Ext] (x : Sources) (v) (k : String) :
    member k (Sources.enc (Api.Sources.set_kind x v)) = if k = "kind" then some (SourceKind.enc v) else member k (Sources.enc x) := by
  simp only [Sources.enc, Api.Sources.set_kind, member_obj_append, member_fld, member_skipNone, member_skipIf]
  by_cases h : k = "kind"
  · subst h; simp [value_isNull, kind_isNone]
  · simp [h]

theorem set_Sources_set_uri [Ext] (x : Sources) (v) (k : String) :
    member k (Sources.enc (Api.Sources.set_uri x v)) = if k = "uri" then some (encUrl v) else member k (Sources.enc x) := by
  simp only [Sources.enc, Api.Sources.set_uri, member_obj_append, member_fld, member_skipNone, member_skipIf]
  by_cases h : k = "uri"
  · subst h; simp [value_isNull, kind_isNone]
  · simp [h]

theorem set_Sources_set_generated [Ext] (x : Sources) (v) (k : String) :
    member k (Sources.enc (Api.Sources.set_generated x v)) = if k = "generated" then some (Json.bool v) else member k (Sources.enc x) := by
  simp only [Sources.enc, Api.Sources.set_generated, member_obj_append, member_fld, member_skipNone, member_skipIf]
  by_cases h : k = "generated"
  · subst h; simp [value_isNull, kind_isNone]
  · simp [h]

theorem set_BuildTargetTest_set_target [Ext] (x : BuildTargetTest) (v) (k : String) :
    member k (BuildTargetTest.enc (Api.BuildTargetTest.set_target x v)) = if k = "target" then some (BuildTargetIdentifier.enc v) else member k (BuildTargetTest.enc x) := by
  simp only [BuildTargetTest.enc, Api.BuildTargetTest.set_target, member_obj_append, member_fld, member_skipNone, member_skipIf]
  by_cases h : k = "target"
  · subst h; simp [value_isNull, kind_isNone]
  · simp [h]

theorem set_BuildTargetTest_set_origin_id [Ext] (x : BuildTargetTest) (v) (k : String) :
    member k (BuildTargetTest.enc (Api.BuildTargetTest.set_origin_id x v)) = if k = "originId" then v.map Json.str else member k (BuildTargetTest.enc x) := by
  simp only [BuildTargetTest.enc, Api.BuildTargetTest.set_origin_id, member_obj_append, member_fld, member_skipNone, member_skipIf]
  by_cases h : k = "originId"
  · subst h; simp [value_isNull, kind_isNone]
  · simp [h]

theorem set_BuildTargetTest_set_arguments [Ext] (x : BuildTargetTest) (v) (k : String) :
    member k (BuildTargetTest.enc (Api.BuildTargetTest.set_arguments x v)) = if k = "arguments" then v.map Json.str else member k (BuildTargetTest.enc x) := by
  simp only [BuildTargetTest.enc, Api.BuildTargetTest.set_arguments, member_obj_append, member_fld, member_skipNone, member_skipIf]
  by_cases h : k = "arguments"
  · subst h; simp [value_isNull, kind_isNone]
  · simp [h]

theorem set_BuildTargetTest_set_data_kind [Ext] (x : BuildTargetTest) (v) (k : String) :
    member k (BuildTargetTest.enc (Api.BuildTargetTest.set_data_kind x v)) = if k = "dataKind" then v.map Json.str else member k (BuildTargetTest.enc x) := by
  simp only [BuildTargetTest.enc, Api.BuildTargetTest.set_data_kind, member_obj_append, member_fld, member_skipNone, member_skipIf]
  by_cases h : k = "dataKind"
  · subst h; simp [value_isNull, kind_isNone]
  · simp [h]

theorem set_BuildTargetTest_set_data [Ext] (x : BuildTargetTest) (v) (k : String) :
    member k (BuildTargetTest.enc (Api.BuildTargetTest.set_data x v)) = if k = "data" then v.map Value.json else member k (BuildTargetTest.enc x) := by
  simp only [BuildTargetTest.enc, Api.BuildTargetTest.set_data, member_obj_append, member_fld, member_skipNone, member_skipIf]
  by_cases h : k = "data"
  · subst h; simp [value_isNull, kind_isNone]
  · simp [h]

theorem set_BuildTargetTestResult_set_origin_id [Ext] (x : BuildTargetTestResult) (v) (k : String) :
    member k (BuildTargetTestResult.enc (Api.BuildTargetTestResult.set_origin_id x v)) = if k = "originId" then v.map Json.str else member k (BuildTargetTestResult.enc x) := by
  simp only [BuildTargetTestResult.enc, Api.BuildTargetTestResult.set_origin_id, member_obj_append, member_fld, member_skipNone, member_skipIf]
  by_cases h : k = "originId"
  · subst h; simp [value_isNull, kind_isNone]
  · simp [h]

theorem set_BuildTargetTestResult_set_status_code [Ext] (x : BuildTargetTestResult) (v) (k : String) :
    member k (BuildTargetTestResult.enc (Api.BuildTargetTestResult.set_status_code x v)) = if k = "statusCode" then some (encUsize v) else member k (BuildTargetTestResult.enc x) := by
  simp only [BuildTargetTestResult.enc, Api.BuildTargetTestResult.set_status_code, member_obj_append, member_fld, member_skipNone, member_skipIf]
  by_cases h : k = "statusCode"
  · subst h; simp [value_isNull, kind_isNone]
  · simp [h]

theorem set_BuildTargetTestResult_set_data_kind [Ext] (x : BuildTargetTestResult) (v) (k : String) :
    member k (BuildTargetTestResult.enc (Api.BuildTargetTestResult.set_data_kind x v)) = if k = "dataKind" then v.map Json.str else member k (BuildTargetTestResult.enc x) := by
  simp only [BuildTargetTestResult.enc, Api.BuildTargetTestResult.set_data_kind, member_obj_append, member_fld, member_skipNone, member_skipIf]
  by_cases h : k = "dataKind"
  · subst h; simp [value_isNull, kind_isNone]
  · simp [h]

theorem set_BuildTargetTestResult_set_data [Ext] (x : BuildTargetTestResult) (v) (k : String) :
    member k (BuildTargetTestResult.enc (Api.BuildTargetTestResult.set_data x v)) = if k = "data" then v.map Value.json else member k (BuildTargetTestResult.enc x) := by
  simp only [BuildTargetTestResult.enc, Api.BuildTargetTestResult.set_data, member_obj_append, member_fld, member_skipNone, member_skipIf]
  by_cases h : k = "data"
  · subst h; simp [value_isNull, kind_isNone]
  · simp [h]

theorem set_ClientCapabilities_set_language_ids [Ext] (x : ClientCapabilities) (v) (k : String) :
    member k (ClientCapabilities.enc (Api.ClientCapabilities.set_language_ids x v)) = if k = "languageIds" then some (encList Json.str v) else member k (ClientCapabilities.enc x) := by
  simp only [ClientCapabilities.enc, Api.ClientCapabilities.set_language_ids, member_obj_append, member_fld, member_skipNone, member_skipIf]
  by_cases h : k = "languageIds"
  · subst h; simp [value_isNull, kind_isNone]
  · simp [h]

theorem set_ClientCapabilities_language_ids_mut [Ext] (x : ClientCapabilities) (v) (k : String) :
    member k (ClientCapabilities.enc (Api.ClientCapabilities.language_ids_mut x v)) = if k = "languageIds" then some (encList Json.str v) else member k (ClientCapabilities.enc x) := by
  simp only [ClientCapabilities.enc, Api.ClientCapabilities.language_ids_mut, member_obj_append, member_fld, member_skipNone, member_skipIf]
  by_cases h : k = "languageIds"
  · subst h; simp [value_isNull, kind_isNone]
  · simp [h]

theorem set_DebugSessionStart_set_targets [Ext] (x : DebugSessionStart) (v) (k : String) :
    member k (DebugSessionStart.enc (Api.DebugSessionStart.set_targets x v)) = if k = "targets" then some (encList BuildTargetIdentifier.enc v) else member k (DebugSessionStart.enc x) := by
  simp only [DebugSessionStart.enc, Api.DebugSessionStart.set_targets, member_obj_append, member_fld, member_skipNone, member_skipIf]
  by_cases h : k = "targets"
  · subst h; simp [value_isNull, kind_isNone]
  · simp [h]

theorem set_DebugSessionStart_set_data_kind [Ext] (x : DebugSessionStart) (v) (k : String) :
    member k (DebugSessionStart.enc (Api.DebugSessionStart.set_data_kind x v)) = if k = "dataKind" then some (Json.str v) else member k (DebugSessionStart.enc x) := by
  simp only [DebugSessionStart.enc, Api.DebugSessionStart.set_data_kind, member_obj_append, member_fld, member_skipNone, member_skipIf]
  by_cases h : k = "dataKind"
  · subst h; simp [value_isNull, kind_isNone]
  · simp [h]

theorem set_DebugSessionStart_set_data [Ext] (x : DebugSessionStart) (v) (k : String) :
    member k (DebugSessionStart.enc (Api.DebugSessionStart.set_data x v)) = if k = "data" then if v = Value.null then none else some v.json else member k (DebugSessionStart.enc x) := by
  simp only [DebugSessionStart.enc, Api.DebugSessionStart.set_data, member_obj_append, member_fld, member_skipNone, member_skipIf]
  by_cases h : k = "data"
  · subst h; simp [value_isNull, kind_isNone]
  · simp [h]

theorem set_InitializeBuild_set_data [Ext] (x : InitializeBuild) (v) (k : String) :
    member k (InitializeBuild.enc (Api.InitializeBuild.set_data x v)) = if k = "data" then v.map Value.json else member k (InitializeBuild.enc x) := by
  simp only [InitializeBuild.enc, Api.InitializeBuild.set_data, member_obj_append, member_fld, member_skipNone, member_skipIf]
  by_cases h : k = "data"
  · subst h; simp [value_isNull, kind_isNone]
  · simp [h]

theorem set_InitializeBuild_set_capabilities [Ext] (x : InitializeBuild) (v) (k : String) :
    member k (InitializeBuild.enc (Api.InitializeBuild.set_capabilities x v)) = if k = "capabilities" then some (ClientCapabilities.enc v) else member k (InitializeBuild.enc x) := by
  simp only [InitializeBuild.enc, Api.InitializeBuild.set_capabilities, member_obj_append, member_fld, member_skipNone, member_skipIf]
  by_cases h : k = "capabilities"
  · subst h; simp [value_isNull, kind_isNone]
  · simp [h]

theorem set_InitializeBuild_set_root_uri [Ext] (x : InitializeBuild) (v) (k : String) :
    member k (InitializeBuild.enc (Api.InitializeBuild.set_root_uri x v)) = if k = "rootUri" then some (encUrl v) else member k (InitializeBuild.enc x) := by
  simp only [InitializeBuild.enc, Api.InitializeBuild.set_root_uri, member_obj_append, member_fld, member_skipNone, member_skipIf]
  by_cases h : k = "rootUri"
  · subst h; simp [value_isNull, kind_isNone]
  · simp [h]

theorem set_InitializeBuild_set_bsp_version [Ext] (x : InitializeBuild) (v) (k : String) :
    member k (InitializeBuild.enc (Api.InitializeBuild.set_bsp_version x v)) = if k = "bspVersion" then if v = "" then none else some (Json.str v) else member k (InitializeBuild.enc x) := by
  simp only [InitializeBuild.enc, Api.InitializeBuild.set_bsp_version, member_obj_append, member_fld, member_skipNone, member_skipIf]
  by_cases h : k = "bspVersion"
  · subst h; simp [value_isNull, kind_isNone]
  · simp [h]

theorem set_InitializeBuild_set_version [Ext] (x : InitializeBuild) (v) (k : String) :
    member k (InitializeBuild.enc (Api.InitializeBuild.set_version x v)) = if k = "version" then if v = "" then none else some (Json.str v) else member k (InitializeBuild.enc x) := by
  simp only [InitializeBuild.enc, Api.InitializeBuild.set_version, member_obj_append, member_fld, member_skipNone, member_skipIf]
  by_cases h : k = "version"
  · subst h; simp [value_isNull, kind_isNone]
  · simp [h]

theorem set_InitializeBuild_set_display_name [Ext] (x : InitializeBuild) (v) (k : String) :
    member k (InitializeBuild.enc (Api.InitializeBuild.set_display_name x v)) = if k = "displayName" then some (Json.str v) else member k (InitializeBuild.enc x) := by
  simp only [InitializeBuild.enc, Api.InitializeBuild.set_display_name, member_obj_append, member_fld, member_skipNone, member_skipIf]
  by_cases h : k = "displayName"
  · subst h; simp [value_isNull, kind_isNone]
  · simp [h]

theorem set_InitializeBuildResult_set_bsp_version [Ext] (x : InitializeBuildResult) (v) (k : String) :
    member k (InitializeBuildResult.enc (Api.InitializeBuildResult.set_bsp_version x v)) = if k = "bspVersion" then some (Json.str v) else member k (InitializeBuildResult.enc x) := by
  simp only [InitializeBuildResult.enc, Api.InitializeBuildResult.set_bsp_version, member_obj_append, member_fld, member_skipNone, member_skipIf]
  by_cases h : k = "bspVersion"
  · subst h; simp [value_isNull, kind_isNone]
  · simp [h]

theorem set_InitializeBuildResult_set_version [Ext] (x : InitializeBuildResult) (v) (k : String) :
    member k (InitializeBuildResult.enc (Api.InitializeBuildResult.set_version x v)) = if k = "version" then some (Json.str v) else member k (InitializeBuildResult.enc x) := by
  simp only [InitializeBuildResult.enc, Api.InitializeBuildResult.set_version, member_obj_append, member_fld, member_skipNone, member_skipIf]
  by_cases h : k = "version"
  · subst h; simp [value_isNull, kind_isNone]
  · simp [h]

theorem set_InitializeBuildResult_set_display_name [Ext] (x : InitializeBuildResult) (v) (k : String) :
    member k (InitializeBuildResult.enc (Api.InitializeBuildResult.set_display_name x v)) = if k = "displayName" then some (Json.str v) else member k (InitializeBuildResult.enc x) := by
  simp only [InitializeBuildResult.enc, Api.InitializeBuildResult.set_display_name, member_obj_append, member_fld, member_skipNone, member_skipIf]
  by_cases h : k = "displayName"
  · subst h; simp [value_isNull, kind_isNone]
  · simp [h]

theorem set_InitializeBuildResult_set_capabilities [Ext] (x : InitializeBuildResult) (v) (k : String) :
    member k (InitializeBuildResult.enc (Api.InitializeBuildResult.set_capabilities x v)) = if k = "capabilities" then some (ServerCapabilities.enc v) else member k (InitializeBuildResult.enc x) := by
  simp only [InitializeBuildResult.enc, Api.InitializeBuildResult.set_capabilities, member_obj_append, member_fld, member_skipNone, member_skipIf]
  by_cases h : k = "capabilities"
  · subst h; simp [value_isNull, kind_isNone]
  · simp [h]

theorem set_InitializeBuildResult_set_data [Ext] (x : InitializeBuildResult) (v) (k : String) :
    member k (InitializeBuildResult.enc (Api.InitializeBuildResult.set_data x v)) = if k = "data" then v.map Value.json else member k (InitializeBuildResult.enc x) := by
  simp only [InitializeBuildResult.enc, Api.InitializeBuildResult.set_data, member_obj_append, member_fld, member_skipNone, member_skipIf]
  by_cases h : k = "data"
  · subst h; simp [value_isNull, kind_isNone]
  · simp [h]

theorem set_InitializeBuildResult_data_mut [Ext] (x : InitializeBuildResult) (v) (k : String) :
    member k (InitializeBuildResult.enc (Api.InitializeBuildResult.data_mut x v)) = if k = "data" then v.map Value.json else member k (InitializeBuildResult.enc x) := by
  simp only [InitializeBuildResult.enc, Api.InitializeBuildResult.data_mut, member_obj_append, member_fld, member_skipNone, member_skipIf]
  by_cases h : k = "data"
  · subst h; simp [value_isNull, kind_isNone]
  · simp [h]

theorem set_ServerCapabilities_set_compile_provider [Ext] (x : ServerCapabilities) (v) (k : String) :
    member k (ServerCapabilities.enc (Api.ServerCapabilities.set_compile_provider x v)) = if k = "compileProvider" then v.map CompileProvider.enc else member k (ServerCapabilities.enc x) := by
  simp only [ServerCapabilities.enc, Api.ServerCapabilities.set_compile_provider, member_obj_append, member_fld, member_skipNone, member_skipIf]
  by_cases h : k = "compileProvider"
  · subst h; simp [value_isNull, kind_isNone]
  · simp [h]

theorem set_ServerCapabilities_set_test_provider [Ext] (x : ServerCapabilities) (v) (k : String) :
    member k (ServerCapabilities.enc (Api.ServerCapabilities.set_test_provider x v)) = if k = "testProvider" then v.map TestProvider.enc else member k (ServerCapabilities.enc x) := by
  simp only [ServerCapabilities.enc, Api.ServerCapabilities.set_test_provider, member_obj_append, member_fld, member_skipNone, member_skipIf]
  by_cases h : k = "testProvider"
  · subst h; simp [value_isNull, kind_isNone]
  · simp [h]

theorem set_ServerCapabilities_set_run_provider [Ext] (x : ServerCapabilities) (v) (k : String) :
    member k (ServerCapabilities.enc (Api.ServerCapabilities.set_run_provider x v)) = if k = "runProvider" then v.map RunProvider.enc else member k (ServerCapabilities.enc x) := by
  simp only [ServerCapabilities.enc, Api.ServerCapabilities.set_run_provider, member_obj_append, member_fld, member_skipNone, member_skipIf]
  by_cases h : k = "runProvider"
  · subst h; simp [value_isNull, kind_isNone]
  · simp [h]

theorem set_ServerCapabilities_set_debug_provider [Ext] (x : ServerCapabilities) (v) (k : String) :
    member k (ServerCapabilities.enc (Api.ServerCapabilities.set_debug_provider x v)) = if k = "debugProvider" then v.map DebugProvider.enc else member k (ServerCapabilities.enc x) := by
  simp only [ServerCapabilities.enc, Api.ServerCapabilities.set_debug_provider, member_obj_append, member_fld, member_skipNone, member_skipIf]
  by_cases h : k = "debugProvider"
  · subst h; simp [value_isNull, kind_isNone]
  · simp [h]

theorem set_ServerCapabilities_set_inverse_sources_provider [Ext] (x : ServerCapabilities) (v) (k : String) :
    member k (ServerCapabilities.enc (Api.ServerCapabilities.set_inverse_sources_provider x v)) = if k = "inverseSourcesProvider" then v.map Json.bool else member k (ServerCapabilities.enc x) := by
  simp only [ServerCapabilities.enc, Api.ServerCapabilities.set_inverse_sources_provider, member_obj_append, member_fld, member_skipNone, member_skipIf]
  by_cases h : k = "inverseSourcesProvider"
  · subst h; simp [value_isNull, kind_isNone]
  · simp [h]

theorem set_ServerCapabilities_set_dependency_sources_provider [Ext] (x : ServerCapabilities) (v) (k : String) :
    member k (ServerCapabilities.enc (Api.ServerCapabilities.set_dependency_sources_provider x v)) = if k = "dependencySourcesProvider" then v.map Json.bool else member k (ServerCapabilities.enc x) := by
  simp only [ServerCapabilities.enc, Api.ServerCapabilities.set_dependency_sources_provider, member_obj_append, member_fld, member_skipNone, member_skipIf]
  by_cases h : k = "dependencySourcesProvider"
  · subst h; simp [value_isNull, kind_isNone]
  · simp [h]

theorem set_ServerCapabilities_set_dependency_modules_provider [Ext] (x : ServerCapabilities) (v) (k : String) :
    member k (ServerCapabilities.enc (Api.ServerCapabilities.set_dependency_modules_provider x v)) = if k = "dependencyModulesProvider" then v.map Json.bool else member k (ServerCapabilities.enc x) := by
  simp only [ServerCapabilities.enc, Api.ServerCapabilities.set_dependency_modules_provider, member_obj_append, member_fld, member_skipNone, member_skipIf]
  by_cases h : k = "dependencyModulesProvider"
  · subst h; simp [value_isNull, kind_isNone]
  · simp [h]

theorem set_ServerCapabilities_set_resources_provider [Ext] (x : ServerCapabilities) (v) (k : String) :
    member k (ServerCapabilities.enc (Api.ServerCapabilities.set_resources_provider x v)) = if k = "resourcesProvider" then v.map Json.bool else member k (ServerCapabilities.enc x) := by
  simp only [ServerCapabilities.enc, Api.ServerCapabilities.set_resources_provider, member_obj_append, member_fld, member_skipNone, member_skipIf]
  by_cases h : k = "resourcesProvider"
  · subst h; simp [value_isNull, kind_isNone]
  · simp [h]

theorem set_ServerCapabilities_set_can_reload [Ext] (x : ServerCapabilities) (v) (k : String) :
    member k (ServerCapabilities.enc (Api.ServerCapabilities.set_can_reload x v)) = if k = "canReload" then v.map Json.bool else member k (ServerCapabilities.enc x) := by
  simp only [ServerCapabilities.enc, Api.ServerCapabilities.set_can_reload, member_obj_append, member_fld, member_skipNone, member_skipIf]
  by_cases h : k = "canReload"
  · subst h; simp [value_isNull, kind_isNone]
  · simp [h]

theorem set_ServerCapabilities_set_build_target_changed_provider [Ext] (x : ServerCapabilities) (v) (k : String) :
    member k (ServerCapabilities.enc (Api.ServerCapabilities.set_build_target_changed_provider x v)) = if k = "buildTargetChangedProvider" then v.map Json.bool else member k (ServerCapabilities.enc x) := by
  simp only [ServerCapabilities.enc, Api.ServerCapabilities.set_build_target_changed_provider, member_obj_append, member_fld, member_skipNone, member_skipIf]
  by_cases h : k = "buildTargetChangedProvider"
  · subst h; simp [value_isNull, kind_isNone]
  · simp [h]

/-- C65: every setter changes on the wire exactly the member it is named after. -/
theorem C65_setters [Ext] : ∀ s ∈ Spec.setters, s.Law := by
  simp only [Spec.setters, List.forall_mem_cons, List.not_mem_nil, false_imp_iff, forall_const, implies_true, and_true]
  exact ⟨set_BuildTargetCapabilities_set_can_compile, set_BuildTargetCapabilities_set_can_test, set_BuildTargetCapabilities_set_can_run, set_BuildTargetCapabilities_set_can_debug, set_BuildTargetCleanCache_targets_mut, set_BuildTargetCleanCache_set_targets, set_BuildTargetCleanCacheResult_set_cleaned, set_BuildTargetCleanCacheResult_set_message, set_BuildTargetCompile_set_target, set_BuildTargetCompile_set_origin_id, set_BuildTargetCompile_set_arguments, set_BuildTargetCompileResult_set_origin_id, set_BuildTargetCompileResult_set_status_code, set_BuildTargetCompileResult_set_data_kind, set_BuildTargetCompileResult_set_data, set_BuildTargetDependencyModules_targets_mut, set_BuildTargetDependencyModules_set_targets, set_BuildTargetDependencyModulesResult_items_mut, set_DependencyModulesItem_set_modules, set_DependencyModule_set_name, set_DependencyModule_set_version, set_DependencyModule_set_data_kind, set_BuildTargetDependencySources_set_text_document, set_DependencySourcesItem_set_target, set_DependencySourcesItem_set_sources, set_BuildTargetIdentifier_set_uri, set_TextDocumentInverseSources_set_text_document, set_BuildTargetResources_set_targets, set_BuildTargetResources_targets_mut, set_BuildTargetResourcesResult_items_mut, set_Resources_set_target, set_Resources_set_resources, set_BuildTargetRun_set_target, set_BuildTargetRun_set_origin_id, set_BuildTargetRun_set_arguments, set_BuildTargetRun_set_data_kind, set_BuildTargetRun_set_data, set_BuildTargetRunResult_set_origin_id, set_BuildTargetRunResult_set_status_code, set_BuildTargetSources_set_targets, set_BuildTargetSourcesResult_set_items, set_SourcesCollection_set_target, set_SourcesCollection_set_sources, set_Sources_set_kind, set_Sources_set_uri, set_Sources_set_generated, set_BuildTargetTest_set_target, set_BuildTargetTest_set_origin_id, set_BuildTargetTest_set_arguments, set_BuildTargetTest_set_data_kind, set_BuildTargetTest_set_data, set_BuildTargetTestResult_set_origin_id, set_BuildTargetTestResult_set_status_code, set_BuildTargetTestResult_set_data_kind, set_BuildTargetTestResult_set_data, set_ClientCapabilities_set_language_ids, set_ClientCapabilities_language_ids_mut, set_DebugSessionStart_set_targets, set_DebugSessionStart_set_data_kind, set_DebugSessionStart_set_data, set_InitializeBuild_set_data, set_InitializeBuild_set_capabilities, set_InitializeBuild_set_root_uri, set_InitializeBuild_set_bsp_version, set_InitializeBuild_set_version, set_InitializeBuild_set_display_name, set_InitializeBuildResult_set_bsp_version, set_InitializeBuildResult_set_version, set_InitializeBuildResult_set_display_name, set_InitializeBuildResult_set_capabilities, set_InitializeBuildResult_set_data, set_InitializeBuildResult_data_mut, set_ServerCapabilities_set_compile_provider, set_ServerCapabilities_set_test_provider, set_ServerCapabilities_set_run_provider, set_ServerCapabilities_set_debug_provider, set_ServerCapabilities_set_inverse_sources_provider, set_ServerCapabilities_set_dependency_sources_provider, set_ServerCapabilities_set_dependency_modules_provider, set_ServerCapabilities_set_resources_provider, set_ServerCapabilities_set_can_reload, set_ServerCapabilities_set_build_target_changed_provider⟩

theorem get_BuildTargetCapabilities_can_compile [Ext] (x : BuildTargetCapabilities) :
    member "canCompile" (BuildTargetCapabilities.enc x) = (fun v => some (Json.bool v)) (Api.BuildTargetCapabilities.can_compile x) := by
  simp only [BuildTargetCapabilities.enc, Api.BuildTargetCapabilities.can_compile, member_obj_append, member_fld, member_skipNone, member_skipIf]
  simp [encUrl]

theorem get_BuildTargetCapabilities_can_test [Ext] (x : BuildTargetCapabilities) :
    member "canTest" (BuildTargetCapabilities.enc x) = (fun v => some (Json.bool v)) (Api.BuildTargetCapabilities.can_test x) := by
  simp only [BuildTargetCapabilities.enc, Api.BuildTargetCapabilities.can_test, member_obj_append, member_fld, member_skipNone, member_skipIf]
  simp [encUrl]

theorem get_BuildTargetCapabilities_can_run [Ext] (x : BuildTargetCapabilities) :
    member "canRun" (BuildTargetCapabilities.enc x) = (fun v => some (Json.bool v)) (Api.BuildTargetCapabilities.can_run x) := by
  simp only [BuildTargetCapabilities.enc, Api.BuildTargetCapabilities.can_run, member_obj_append, member_fld, member_skipNone, member_skipIf]
  simp [encUrl]

theorem get_BuildTargetCapabilities_can_debug [Ext] (x : BuildTargetCapabilities) :
    member "canDebug" (BuildTargetCapabilities.enc x) = (fun v => some (Json.bool v)) (Api.BuildTargetCapabilities.can_debug x) := by
  simp only [BuildTargetCapabilities.enc, Api.BuildTargetCapabilities.can_debug, member_obj_append, member_fld, member_skipNone, member_skipIf]
  simp [encUrl]

theorem get_BuildTargetCleanCache_targets [Ext] (x : BuildTargetCleanCache) :
    member "targets" (BuildTargetCleanCache.enc x) = (fun v => some (encList BuildTargetIdentifier.enc v)) (Api.BuildTargetCleanCache.targets x) := by
  simp only [BuildTargetCleanCache.enc, Api.BuildTargetCleanCache.targets, member_obj_append, member_fld, member_skipNone, member_skipIf]
  simp [encUrl]

theorem get_BuildTargetCleanCacheResult_message [Ext] (x : BuildTargetCleanCacheResult) :
    member "message" (BuildTargetCleanCacheResult.enc x) = (fun v => v.map Json.str) (Api.BuildTargetCleanCacheResult.message x) := by
  simp only [BuildTargetCleanCacheResult.enc, Api.BuildTargetCleanCacheResult.message, member_obj_append, member_fld, member_skipNone, member_skipIf]
  simp [encUrl]

theorem get_BuildTargetCleanCacheResult_cleaned [Ext] (x : BuildTargetCleanCacheResult) :
    member "cleaned" (BuildTargetCleanCacheResult.enc x) = (fun v => some (Json.bool v)) (Api.BuildTargetCleanCacheResult.cleaned x) := by
  simp only [BuildTargetCleanCacheResult.enc, Api.BuildTargetCleanCacheResult.cleaned, member_obj_append, member_fld, member_skipNone, member_skipIf]
  simp [encUrl]

theorem get_BuildTargetCompile_target [Ext] (x : BuildTargetCompile) :
    member "target" (BuildTargetCompile.enc x) = (fun v => some (BuildTargetIdentifier.enc v)) (Api.BuildTargetCompile.target x) := by
  simp only [BuildTargetCompile.enc, Api.BuildTargetCompile.target, member_obj_append, member_fld, member_skipNone, member_skipIf]
  simp [encUrl]

theorem get_BuildTargetCompile_origin_id [Ext] (x : BuildTargetCompile) :
    member "originId" (BuildTargetCompile.enc x) = (fun v => v.map Json.str) (Api.BuildTargetCompile.origin_id x) := by
  simp only [BuildTargetCompile.enc, Api.BuildTargetCompile.origin_id, member_obj_append, member_fld, member_skipNone, member_skipIf]
  simp [encUrl]

theorem get_BuildTargetCompile_arguments [Ext] (x : BuildTargetCompile) :
    member "arguments" (BuildTargetCompile.enc x) = (fun v => v.map Json.str) (Api.BuildTargetCompile.arguments x) := by
  simp only [BuildTargetCompile.enc, Api.BuildTargetCompile.arguments, member_obj_append, member_fld, member_skipNone, member_skipIf]
  simp [encUrl]

theorem get_BuildTargetCompileResult_origin_id [Ext] (x : BuildTargetCompileResult) :
    member "originId" (BuildTargetCompileResult.enc x) = (fun v => v.map Json.str) (Api.BuildTargetCompileResult.origin_id x) := by
  simp only [BuildTargetCompileResult.enc, Api.BuildTargetCompileResult.origin_id, member_obj_append, member_fld, member_skipNone, member_skipIf]
  simp [encUrl]

theorem get_BuildTargetCompileResult_status_code [Ext] (x : BuildTargetCompileResult) :
    member "statusCode" (BuildTargetCompileResult.enc x) = (fun v => some (encUsize v)) (Api.BuildTargetCompileResult.status_code x) := by
  simp only [BuildTargetCompileResult.enc, Api.BuildTargetCompileResult.status_code, member_obj_append, member_fld, member_skipNone, member_skipIf]
  simp [encUrl]

theorem get_BuildTargetCompileResult_data_kind [Ext] (x : BuildTargetCompileResult) :
    member "dataKind" (BuildTargetCompileResult.enc x) = (fun v => v.map Json.str) (Api.BuildTargetCompileResult.data_kind x) := by
  simp only [BuildTargetCompileResult.enc, Api.BuildTargetCompileResult.data_kind, member_obj_append, member_fld, member_skipNone, member_skipIf]
  simp [encUrl]

theorem get_BuildTargetCompileResult_data [Ext] (x : BuildTargetCompileResult) :
    member "data" (BuildTargetCompileResult.enc x) = (fun v => v.map Value.json) (Api.BuildTargetCompileResult.data x) := by
  simp only [BuildTargetCompileResult.enc, Api.BuildTargetCompileResult.data, member_obj_append, member_fld, member_skipNone, member_skipIf]
  simp [encUrl]

theorem get_BuildTargetDependencyModules_targets [Ext] (x : BuildTargetDependencyModules) :
    member "targets" (BuildTargetDependencyModules.enc x) = (fun v => some (encList BuildTargetIdentifier.enc v)) (Api.BuildTargetDependencyModules.targets x) := by
  simp only [BuildTargetDependencyModules.enc, Api.BuildTargetDependencyModules.targets, member_obj_append, member_fld, member_skipNone, member_skipIf]
  simp [encUrl]

theorem get_BuildTargetDependencyModulesResult_items [Ext] (x : BuildTargetDependencyModulesResult) :
    member "items" (BuildTargetDependencyModulesResult.enc x) = (fun v => some (encList DependencyModulesItem.enc v)) (Api.BuildTargetDependencyModulesResult.items x) := by
  simp only [BuildTargetDependencyModulesResult.enc, Api.BuildTargetDependencyModulesResult.items, member_obj_append, member_fld, member_skipNone, member_skipIf]
  simp [encUrl]

theorem get_DependencyModulesItem_target [Ext] (x : DependencyModulesItem) :
    member "target" (DependencyModulesItem.enc x) = (fun v => some (BuildTargetIdentifier.enc v)) (Api.DependencyModulesItem.target x) := by
  simp only [DependencyModulesItem.enc, Api.DependencyModulesItem.target, member_obj_append, member_fld, member_skipNone, member_skipIf]
  simp [encUrl]

theorem get_DependencyModulesItem_modules [Ext] (x : DependencyModulesItem) :
    member "modules" (DependencyModulesItem.enc x) = (fun v => some (encList DependencyModule.enc v)) (Api.DependencyModulesItem.modules x) := by
  simp only [DependencyModulesItem.enc, Api.DependencyModulesItem.modules, member_obj_append, member_fld, member_skipNone, member_skipIf]
  simp [encUrl]

theorem get_DependencyModule_name [Ext] (x : DependencyModule) :
    member "name" (DependencyModule.enc x) = (fun v => some (Json.str v)) (Api.DependencyModule.name x) := by
  simp only [DependencyModule.enc, Api.DependencyModule.name, member_obj_append, member_fld, member_skipNone, member_skipIf]
  simp [encUrl]

theorem get_DependencyModule_version [Ext] (x : DependencyModule) :
    member "version" (DependencyModule.enc x) = (fun v => some (Json.str v)) (Api.DependencyModule.version x) := by
  simp only [DependencyModule.enc, Api.DependencyModule.version, member_obj_append, member_fld, member_skipNone, member_skipIf]
  simp [encUrl]

theorem get_DependencyModule_data_kind [Ext] (x : DependencyModule) :
    member "dataKind" (DependencyModule.enc x) = (fun v => some (encOpt Json.str v)) (Api.DependencyModule.data_kind x) := by
  simp only [DependencyModule.enc, Api.DependencyModule.data_kind, member_obj_append, member_fld, member_skipNone, member_skipIf]
  simp [encUrl]

theorem get_BuildTargetDependencySources_text_document [Ext] (x : BuildTargetDependencySources) :
    member "textDocument" (BuildTargetDependencySources.enc x) = (fun v => some (TextDocumentIdentifier.enc v)) (Api.BuildTargetDependencySources.text_document x) := by
  simp only [BuildTargetDependencySources.enc, Api.BuildTargetDependencySources.text_document, member_obj_append, member_fld, member_skipNone, member_skipIf]
  simp [encUrl]

theorem get_DependencySourcesItem_sources [Ext] (x : DependencySourcesItem) :
    member "sources" (DependencySourcesItem.enc x) = (fun v => some (encList Json.str v)) (Api.DependencySourcesItem.sources x) := by
  simp only [DependencySourcesItem.enc, Api.DependencySourcesItem.sources, member_obj_append, member_fld, member_skipNone, member_skipIf]
  simp [encUrl]

theorem get_DependencySourcesItem_target [Ext] (x : DependencySourcesItem) :
    member "target" (DependencySourcesItem.enc x) = (fun v => some (BuildTargetIdentifier.enc v)) (Api.DependencySourcesItem.target x) := by
  simp only [DependencySourcesItem.enc, Api.DependencySourcesItem.target, member_obj_append, member_fld, member_skipNone, member_skipIf]
  simp [encUrl]

theorem get_BuildTargetIdentifier_uri [Ext] (x : BuildTargetIdentifier) :
    member "uri" (BuildTargetIdentifier.enc x) = (fun v => some (.str v)) (Api.BuildTargetIdentifier.uri x) := by
  simp only [BuildTargetIdentifier.enc, Api.BuildTargetIdentifier.uri, member_obj_append, member_fld, member_skipNone, member_skipIf]
  simp [encUrl]

theorem get_TextDocumentInverseSources_text_document [Ext] (x : TextDocumentInverseSources) :
    member "textDocument" (TextDocumentInverseSources.enc x) = (fun v => some (TextDocumentIdentifier.enc v)) (Api.TextDocumentInverseSources.text_document x) := by
  simp only [TextDocumentInverseSources.enc, Api.TextDocumentInverseSources.text_document, member_obj_append, member_fld, member_skipNone, member_skipIf]
  simp [encUrl]

theorem get_BuildTargetResources_targets [Ext] (x : BuildTargetResources) :
    member "targets" (BuildTargetResources.enc x) = (fun v => some (encList BuildTargetIdentifier.enc v)) (Api.BuildTargetResources.targets x) := by
  simp only [BuildTargetResources.enc, Api.BuildTargetResources.targets, member_obj_append, member_fld, member_skipNone, member_skipIf]
  simp [encUrl]

theorem get_BuildTargetResourcesResult_items [Ext] (x : BuildTargetResourcesResult) :
    member "items" (BuildTargetResourcesResult.enc x) = (fun v => some (encList Resources.enc v)) (Api.BuildTargetResourcesResult.items x) := by
  simp only [BuildTargetResourcesResult.enc, Api.BuildTargetResourcesResult.items, member_obj_append, member_fld, member_skipNone, member_skipIf]
  simp [encUrl]

theorem get_Resources_target [Ext] (x : Resources) :
    member "target" (Resources.enc x) = (fun v => some (BuildTargetIdentifier.enc v)) (Api.Resources.target x) := by
  simp only [Resources.enc, Api.Resources.target, member_obj_append, member_fld, member_skipNone, member_skipIf]
  simp [encUrl]

theorem get_Resources_resources [Ext] (x : Resources) :
    member "resources" (Resources.enc x) = (fun v => some (encList Json.str v)) (Api.Resources.resources x) := by
  simp only [Resources.enc, Api.Resources.resources, member_obj_append, member_fld, member_skipNone, member_skipIf]
  simp [encUrl]

theorem get_BuildTargetRun_target [Ext] (x : BuildTargetRun) :
    member "target" (BuildTargetRun.enc x) = (fun v => some (BuildTargetIdentifier.enc v)) (Api.BuildTargetRun.target x) := by
  simp only [BuildTargetRun.enc, Api.BuildTargetRun.target, member_obj_append, member_fld, member_skipNone, member_skipIf]
  simp [encUrl]

theorem get_BuildTargetRun_origin_id [Ext] (x : BuildTargetRun) :
    member "originId" (BuildTargetRun.enc x) = (fun v => v.map Json.str) (Api.BuildTargetRun.origin_id x) := by
  simp only [BuildTargetRun.enc, Api.BuildTargetRun.origin_id, member_obj_append, member_fld, member_skipNone, member_skipIf]
  simp [encUrl]

theorem get_BuildTargetRun_arguments [Ext] (x : BuildTargetRun) :
    member "arguments" (BuildTargetRun.enc x) = (fun v => v.map Json.str) (Api.BuildTargetRun.arguments x) := by
  simp only [BuildTargetRun.enc, Api.BuildTargetRun.arguments, member_obj_append, member_fld, member_skipNone, member_skipIf]
  simp [encUrl]

theorem get_BuildTargetRun_data_kind [Ext] (x : BuildTargetRun) :
    member "dataKind" (BuildTargetRun.enc x) = (fun v => v.map Json.str) (Api.BuildTargetRun.data_kind x) := by
  simp only [BuildTargetRun.enc, Api.BuildTargetRun.data_kind, member_obj_append, member_fld, member_skipNone, member_skipIf]
  simp [encUrl]

theorem get_BuildTargetRun_data [Ext] (x : BuildTargetRun) :
    member "data" (BuildTargetRun.enc x) = (fun v => v.map Value.json) (Api.BuildTargetRun.data x) := by
  simp only [BuildTargetRun.enc, Api.BuildTargetRun.data, member_obj_append, member_fld, member_skipNone, member_skipIf]
  simp [encUrl]

theorem get_BuildTargetRunResult_origin_id [Ext] (x : BuildTargetRunResult) :
    member "originId" (BuildTargetRunResult.enc x) = (fun v => v.map Json.str) (Api.BuildTargetRunResult.origin_id x) := by
  simp only [BuildTargetRunResult.enc, Api.BuildTargetRunResult.origin_id, member_obj_append, member_fld, member_skipNone, member_skipIf]
  simp [encUrl]

theorem get_BuildTargetRunResult_status_code [Ext] (x : BuildTargetRunResult) :
    member "statusCode" (BuildTargetRunResult.enc x) = (fun v => some (encUsize v)) (Api.BuildTargetRunResult.status_code x) := by
  simp only [BuildTargetRunResult.enc, Api.BuildTargetRunResult.status_code, member_obj_append, member_fld, member_skipNone, member_skipIf]
  simp [encUrl]

theorem get_BuildTargetSources_targets [Ext] (x : BuildTargetSources) :
    member "targets" (BuildTargetSources.enc x) = (fun v => some (encList BuildTargetIdentifier.enc v)) (Api.BuildTargetSources.targets x) := by
  simp only [BuildTargetSources.enc, Api.BuildTargetSources.targets, member_obj_append, member_fld, member_skipNone, member_skipIf]
  simp [encUrl]

theorem get_BuildTargetSourcesResult_items [Ext] (x : BuildTargetSourcesResult) :
    member "items" (BuildTargetSourcesResult.enc x) = (fun v => some (encList SourcesCollection.enc v)) (Api.BuildTargetSourcesResult.items x) := by
  simp only [BuildTargetSourcesResult.enc, Api.BuildTargetSourcesResult.items, member_obj_append, member_fld, member_skipNone, member_skipIf]
  simp [encUrl]

theorem get_SourcesCollection_target [Ext] (x : SourcesCollection) :
    member "target" (SourcesCollection.enc x) = (fun v => some (BuildTargetIdentifier.enc v)) (Api.SourcesCollection.target x) := by
  simp only [SourcesCollection.enc, Api.SourcesCollection.target, member_obj_append, member_fld, member_skipNone, member_skipIf]
  simp [encUrl]

theorem get_SourcesCollection_sources [Ext] (x : SourcesCollection) :
    member "sources" (SourcesCollection.enc x) = (fun v => some (encList Sources.enc v)) (Api.SourcesCollection.sources x) := by
  simp only [SourcesCollection.enc, Api.SourcesCollection.sources, member_obj_append, member_fld, member_skipNone, member_skipIf]
  simp [encUrl]

theorem get_Sources_kind [Ext] (x : Sources) :
    member "kind" (Sources.enc x) = (fun v => some (SourceKind.enc v)) (Api.Sources.kind x) := by
  simp only [Sources.enc, Api.Sources.kind, member_obj_append, member_fld, member_skipNone, member_skipIf]
  simp [encUrl]

theorem get_Sources_uri [Ext] (x : Sources) :
    member "uri" (Sources.enc x) = (fun v => some (encUrl v)) (Api.Sources.uri x) := by
  simp only [Sources.enc, Api.Sources.uri, member_obj_append, member_fld, member_skipNone, member_skipIf]
  simp [encUrl]

theorem get_Sources_generated [Ext] (x : Sources) :
    member "generated" (Sources.enc x) = (fun v => some (Json.bool v)) (Api.Sources.generated x) := by
  simp only [Sources.enc, Api.Sources.generated, member_obj_append, member_fld, member_skipNone, member_skipIf]
  simp [encUrl]

theorem get_BuildTargetTest_target [Ext] (x : BuildTargetTest) :
    member "target" (BuildTargetTest.enc x) = (fun v => some (BuildTargetIdentifier.enc v)) (Api.BuildTargetTest.target x) := by
  simp only [BuildTargetTest.enc, Api.BuildTargetTest.target, member_obj_append, member_fld, member_skipNone, member_skipIf]
  simp [encUrl]

theorem get_BuildTargetTest_origin_id [Ext] (x : BuildTargetTest) :
    member "originId" (BuildTargetTest.enc x) = (fun v => v.map Json.str) (Api.BuildTargetTest.origin_id x) := by
  simp only [BuildTargetTest.enc, Api.BuildTargetTest.origin_id, member_obj_append, member_fld, member_skipNone, member_skipIf]
  simp [encUrl]

theorem get_BuildTargetTest_arguments [Ext] (x : BuildTargetTest) :
    member "arguments" (BuildTargetTest.enc x) = (fun v => v.map Json.str) (Api.BuildTargetTest.arguments x) := by
  simp only [BuildTargetTest.enc, Api.BuildTargetTest.arguments, member_obj_append, member_fld, member_skipNone, member_skipIf]
  simp [encUrl]

theorem get_BuildTargetTest_data_kind [Ext] (x : BuildTargetTest) :
    member "dataKind" (BuildTargetTest.enc x) = (fun v => v.map Json.str) (Api.BuildTargetTest.data_kind x) := by
  simp only [BuildTargetTest.enc, Api.BuildTargetTest.data_kind, member_obj_append, member_fld, member_skipNone, member_skipIf]
  simp [encUrl]

theorem get_BuildTargetTest_data [Ext] (x : BuildTargetTest) :
    member "data" (BuildTargetTest.enc x) = (fun v => v.map Value.json) (Api.BuildTargetTest.data x) := by
  simp only [BuildTargetTest.enc, Api.BuildTargetTest.data, member_obj_append, member_fld, member_skipNone, member_skipIf]
  simp [encUrl]

theorem get_BuildTargetTestResult_origin_id [Ext] (x : BuildTargetTestResult) :
    member "originId" (BuildTargetTestResult.enc x) = (fun v => v.map Json.str) (Api.BuildTargetTestResult.origin_id x) := by
  simp only [BuildTargetTestResult.enc, Api.BuildTargetTestResult.origin_id, member_obj_append, member_fld, member_skipNone, member_skipIf]
  simp [encUrl]

theorem get_BuildTargetTestResult_status_code [Ext] (x : BuildTargetTestResult) :
    member "statusCode" (BuildTargetTestResult.enc x) = (fun v => some (encUsize v)) (Api.BuildTargetTestResult.status_code x) := by
  simp only [BuildTargetTestResult.enc, Api.BuildTargetTestResult.status_code, member_obj_append, member_fld, member_skipNone, member_skipIf]
  simp [encUrl]

theorem get_BuildTargetTestResult_data_kind [Ext] (x : BuildTargetTestResult) :
    member "dataKind" (BuildTargetTestResult.enc x) = (fun v => v.map Json.str) (Api.BuildTargetTestResult.data_kind x) := by
  simp only [BuildTargetTestResult.enc, Api.BuildTargetTestResult.data_kind, member_obj_append, member_fld, member_skipNone, member_skipIf]
  simp [encUrl]

theorem get_BuildTargetTestResult_data [Ext] (x : BuildTargetTestResult) :
    member "data" (BuildTargetTestResult.enc x) = (fun v => v.map Value.json) (Api.BuildTargetTestResult.data x) := by
  simp only [BuildTargetTestResult.enc, Api.BuildTargetTestResult.data, member_obj_append, member_fld, member_skipNone, member_skipIf]
  simp [encUrl]

theorem get_ClientCapabilities_language_ids [Ext] (x : ClientCapabilities) :
    member "languageIds" (ClientCapabilities.enc x) = (fun v => some (encList Json.str v)) (Api.ClientCapabilities.language_ids x) := by
  simp only [ClientCapabilities.enc, Api.ClientCapabilities.language_ids, member_obj_append, member_fld, member_skipNone, member_skipIf]
  simp [encUrl]

theorem get_DebugSessionStart_targets [Ext] (x : DebugSessionStart) :
    member "targets" (DebugSessionStart.enc x) = (fun v => some (encList BuildTargetIdentifier.enc v)) (Api.DebugSessionStart.targets x) := by
  simp only [DebugSessionStart.enc, Api.DebugSessionStart.targets, member_obj_append, member_fld, member_skipNone, member_skipIf]
  simp [encUrl]

theorem get_DebugSessionStart_data_kind [Ext] (x : DebugSessionStart) :
    member "dataKind" (DebugSessionStart.enc x) = (fun v => some (Json.str v)) (Api.DebugSessionStart.data_kind x) := by
  simp only [DebugSessionStart.enc, Api.DebugSessionStart.data_kind, member_obj_append, member_fld, member_skipNone, member_skipIf]
  simp [encUrl]

theorem get_DebugSessionStart_data [Ext] (x : DebugSessionStart) :
    member "data" (DebugSessionStart.enc x) = (fun v => if v = Value.null then none else some v.json) (Api.DebugSessionStart.data x) := by
  simp only [DebugSessionStart.enc, Api.DebugSessionStart.data, member_obj_append, member_fld, member_skipNone, member_skipIf]
  by_cases h : x.data = Value.null <;> simp [h, value_isNull]

theorem get_InitializeBuild_data [Ext] (x : InitializeBuild) :
    member "data" (InitializeBuild.enc x) = (fun v => v.map Value.json) (Api.InitializeBuild.data x) := by
  simp only [InitializeBuild.enc, Api.InitializeBuild.data, member_obj_append, member_fld, member_skipNone, member_skipIf]
  simp [encUrl]

theorem get_InitializeBuild_capabilities [Ext] (x : InitializeBuild) :
    member "capabilities" (InitializeBuild.enc x) = (fun v => some (ClientCapabilities.enc v)) (Api.InitializeBuild.capabilities x) := by
  simp only [InitializeBuild.enc, Api.InitializeBuild.capabilities, member_obj_append, member_fld, member_skipNone, member_skipIf]
  simp [encUrl]

theorem get_InitializeBuild_root_uri [Ext] (x : InitializeBuild) :
    member "rootUri" (InitializeBuild.enc x) = (fun v => some (encUrl v)) (Api.InitializeBuild.root_uri x) := by
  simp only [InitializeBuild.enc, Api.InitializeBuild.root_uri, member_obj_append, member_fld, member_skipNone, member_skipIf]
  simp [encUrl]

theorem get_InitializeBuild_bsp_version [Ext] (x : InitializeBuild) :
    member "bspVersion" (InitializeBuild.enc x) = (fun v => if v = "" then none else some (Json.str v)) (Api.InitializeBuild.bsp_version x) := by
  simp only [InitializeBuild.enc, Api.InitializeBuild.bsp_version, member_obj_append, member_fld, member_skipNone, member_skipIf]
  by_cases h : x.bspVersion = "" <;> simp [h, value_isNull]

theorem get_InitializeBuild_version [Ext] (x : InitializeBuild) :
    member "version" (InitializeBuild.enc x) = (fun v => if v = "" then none else some (Json.str v)) (Api.InitializeBuild.version x) := by
  simp only [InitializeBuild.enc, Api.InitializeBuild.version, member_obj_append, member_fld, member_skipNone, member_skipIf]
  by_cases h : x.version = "" <;> simp [h, value_isNull]

theorem get_InitializeBuild_display_name [Ext] (x : InitializeBuild) :
    member "displayName" (InitializeBuild.enc x) = (fun v => some (Json.str v)) (Api.InitializeBuild.display_name x) := by
  simp only [InitializeBuild.enc, Api.InitializeBuild.display_name, member_obj_append, member_fld, member_skipNone, member_skipIf]
  simp [encUrl]

theorem get_InitializeBuildResult_bsp_version [Ext] (x : InitializeBuildResult) :
    member "bspVersion" (InitializeBuildResult.enc x) = (fun v => some (Json.str v)) (Api.InitializeBuildResult.bsp_version x) := by
  simp only [InitializeBuildResult.enc, Api.InitializeBuildResult.bsp_version, member_obj_append, member_fld, member_skipNone, member_skipIf]
  simp [encUrl]

theorem get_InitializeBuildResult_version [Ext] (x : InitializeBuildResult) :
    member "version" (InitializeBuildResult.enc x) = (fun v => some (Json.str v)) (Api.InitializeBuildResult.version x) := by
  simp only [InitializeBuildResult.enc, Api.InitializeBuildResult.version, member_obj_append, member_fld, member_skipNone, member_skipIf]
  simp [encUrl]

theorem get_InitializeBuildResult_display_name [Ext] (x : InitializeBuildResult) :
    member "displayName" (InitializeBuildResult.enc x) = (fun v => some (Json.str v)) (Api.InitializeBuildResult.display_name x) := by
  simp only [InitializeBuildResult.enc, Api.InitializeBuildResult.display_name, member_obj_append, member_fld, member_skipNone, member_skipIf]
  simp [encUrl]

theorem get_InitializeBuildResult_capabilities [Ext] (x : InitializeBuildResult) :
    member "capabilities" (InitializeBuildResult.enc x) = (fun v => some (ServerCapabilities.enc v)) (Api.InitializeBuildResult.capabilities x) := by
  simp only [InitializeBuildResult.enc, Api.InitializeBuildResult.capabilities, member_obj_append, member_fld, member_skipNone, member_skipIf]
  simp [encUrl]

theorem get_InitializeBuildResult_data [Ext] (x : InitializeBuildResult) :
    member "data" (InitializeBuildResult.enc x) = (fun v => v.map Value.json) (Api.InitializeBuildResult.data x) := by
  simp only [InitializeBuildResult.enc, Api.InitializeBuildResult.data, member_obj_append, member_fld, member_skipNone, member_skipIf]
  simp [encUrl]

theorem get_ServerCapabilities_compile_provider [Ext] (x : ServerCapabilities) :
    member "compileProvider" (ServerCapabilities.enc x) = (fun v => v.map CompileProvider.enc) (Api.ServerCapabilities.compile_provider x) := by
  simp only [ServerCapabilities.enc, Api.ServerCapabilities.compile_provider, member_obj_append, member_fld, member_skipNone, member_skipIf]
  simp [encUrl]

theorem get_ServerCapabilities_test_provider [Ext] (x : ServerCapabilities) :
    member "testProvider" (ServerCapabilities.enc x) = (fun v => v.map TestProvider.enc) (Api.ServerCapabilities.test_provider x) := by
  simp only [ServerCapabilities.enc, Api.ServerCapabilities.test_provider, member_obj_append, member_fld, member_skipNone, member_skipIf]
  simp [encUrl]

theorem get_ServerCapabilities_run_provider [Ext] (x : ServerCapabilities) :
    member "runProvider" (ServerCapabilities.enc x) = (fun v => v.map RunProvider.enc) (Api.ServerCapabilities.run_provider x) := by
  simp only [ServerCapabilities.enc, Api.ServerCapabilities.run_provider, member_obj_append, member_fld, member_skipNone, member_skipIf]
  simp [encUrl]

theorem get_ServerCapabilities_debug_provider [Ext] (x : ServerCapabilities) :
    member "debugProvider" (ServerCapabilities.enc x) = (fun v => v.map DebugProvider.enc) (Api.ServerCapabilities.debug_provider x) := by
  simp only [ServerCapabilities.enc, Api.ServerCapabilities.debug_provider, member_obj_append, member_fld, member_skipNone, member_skipIf]
  simp [encUrl]

theorem get_ServerCapabilities_inverse_sources_provider [Ext] (x : ServerCapabilities) :
    member "inverseSourcesProvider" (ServerCapabilities.enc x) = (fun v => v.map Json.bool) (Api.ServerCapabilities.inverse_sources_provider x) := by
  simp only [ServerCapabilities.enc, Api.ServerCapabilities.inverse_sources_provider, member_obj_append, member_fld, member_skipNone, member_skipIf]
  simp [encUrl]

theorem get_ServerCapabilities_dependency_sources_provider [Ext] (x : ServerCapabilities) :
    member "dependencySourcesProvider" (ServerCapabilities.enc x) = (fun v => v.map Json.bool) (Api.ServerCapabilities.dependency_sources_provider x) := by
  simp only [ServerCapabilities.enc, Api.ServerCapabilities.dependency_sources_provider, member_obj_append, member_fld, member_skipNone, member_skipIf]
  simp [encUrl]

theorem get_ServerCapabilities_dependency_modules_provider [Ext] (x : ServerCapabilities) :
    member "dependencyModulesProvider" (ServerCapabilities.enc x) = (fun v => v.map Json.bool) (Api.ServerCapabilities.dependency_modules_provider x) := by
  simp only [ServerCapabilities.enc, Api.ServerCapabilities.dependency_modules_provider, member_obj_append, member_fld, member_skipNone, member_skipIf]
  simp [encUrl]

theorem get_ServerCapabilities_resources_provider [Ext] (x : ServerCapabilities) :
    member "resourcesProvider" (ServerCapabilities.enc x) = (fun v => v.map Json.bool) (Api.ServerCapabilities.resources_provider x) := by
  simp only [ServerCapabilities.enc, Api.ServerCapabilities.resources_provider, member_obj_append, member_fld, member_skipNone, member_skipIf]
  simp [encUrl]

theorem get_ServerCapabilities_can_reload [Ext] (x : ServerCapabilities) :
    member "canReload" (ServerCapabilities.enc x) = (fun v => v.map Json.bool) (Api.ServerCapabilities.can_reload x) := by
  simp only [ServerCapabilities.enc, Api.ServerCapabilities.can_reload, member_obj_append, member_fld, member_skipNone, member_skipIf]
  simp [encUrl]

theorem get_ServerCapabilities_build_target_changed_provider [Ext] (x : ServerCapabilities) :
    member "buildTargetChangedProvider" (ServerCapabilities.enc x) = (fun v => v.map Json.bool) (Api.ServerCapabilities.build_target_changed_provider x) := by
  simp only [ServerCapabilities.enc, Api.ServerCapabilities.build_target_changed_provider, member_obj_append, member_fld, member_skipNone, member_skipIf]
  simp [encUrl]

/-- C66: every getter returns what is written under the name it has. -/
theorem C66_getters [Ext] : ∀ s ∈ Spec.getters, s.Law := by
  simp only [Spec.getters, List.forall_mem_cons, List.not_mem_nil, false_imp_iff, forall_const, implies_true, and_true]
  exact ⟨get_BuildTargetCapabilities_can_compile, get_BuildTargetCapabilities_can_test, get_BuildTargetCapabilities_can_run, get_BuildTargetCapabilities_can_debug, get_BuildTargetCleanCache_targets, get_BuildTargetCleanCacheResult_message, get_BuildTargetCleanCacheResult_cleaned, get_BuildTargetCompile_target, get_BuildTargetCompile_origin_id, get_BuildTargetCompile_arguments, get_BuildTargetCompileResult_origin_id, get_BuildTargetCompileResult_status_code, get_BuildTargetCompileResult_data_kind, get_BuildTargetCompileResult_data, get_BuildTargetDependencyModules_targets, get_BuildTargetDependencyModulesResult_items, get_DependencyModulesItem_target, get_DependencyModulesItem_modules, get_DependencyModule_name, get_DependencyModule_version, get_DependencyModule_data_kind, get_BuildTargetDependencySources_text_document, get_DependencySourcesItem_sources, get_DependencySourcesItem_target, get_BuildTargetIdentifier_uri, get_TextDocumentInverseSources_text_document, get_BuildTargetResources_targets, get_BuildTargetResourcesResult_items, get_Resources_target, get_Resources_resources, get_BuildTargetRun_target, get_BuildTargetRun_origin_id, get_BuildTargetRun_arguments, get_BuildTargetRun_data_kind, get_BuildTargetRun_data, get_BuildTargetRunResult_origin_id, get_BuildTargetRunResult_status_code, get_BuildTargetSources_targets, get_BuildTargetSourcesResult_items, get_SourcesCollection_target, get_SourcesCollection_sources, get_Sources_kind, get_Sources_uri, get_Sources_generated, get_BuildTargetTest_target, get_BuildTargetTest_origin_id, get_BuildTargetTest_arguments, get_BuildTargetTest_data_kind, get_BuildTargetTest_data, get_BuildTargetTestResult_origin_id, get_BuildTargetTestResult_status_code, get_BuildTargetTestResult_data_kind, get_BuildTargetTestResult_data, get_ClientCapabilities_language_ids, get_DebugSessionStart_targets, get_DebugSessionStart_data_kind, get_DebugSessionStart_data, get_InitializeBuild_data, get_InitializeBuild_capabilities, get_InitializeBuild_root_uri, get_InitializeBuild_bsp_version, get_InitializeBuild_version, get_InitializeBuild_display_name, get_InitializeBuildResult_bsp_version, get_InitializeBuildResult_version, get_InitializeBuildResult_display_name, get_InitializeBuildResult_capabilities, get_InitializeBuildResult_data, get_ServerCapabilities_compile_provider, get_ServerCapabilities_test_provider, get_ServerCapabilities_run_provider, get_ServerCapabilities_debug_provider, get_ServerCapabilities_inverse_sources_provider, get_ServerCapabilities_dependency_sources_provider, get_ServerCapabilities_dependency_modules_provider, get_ServerCapabilities_resources_provider, get_ServerCapabilities_can_reload, get_ServerCapabilities_build_target_changed_provider⟩

theorem new_default_ClientCapabilities [Ext]  :
    ClientCapabilities.enc (Api.default_ClientCapabilities) = .obj (([("languageIds", some (.arr []))] : List (String × Option Json)).filterMap fun m => m.2.map (m.1, ·)) := by
  simp only [ClientCapabilities.enc, Api.default_ClientCapabilities, fld_mem, skipNone_mem', skipIf_mem', mems_cons, mems_nil, List.append_nil, List.append_assoc]
  try simp [value_isNull, mem_none, encOpt, encList, MessageType.enc, MessageType.code, TaskStatus.enc, TaskStatus.code, TaskDataKind.isNone]
  try simp [Spec.mem]

theorem new_default_DebugSessionStart [Ext]  :
    DebugSessionStart.enc (Api.default_DebugSessionStart) = .obj (([("targets", some (.arr [])),
      ("dataKind", some (.str "")),
      ("data", none)] : List (String × Option Json)).filterMap fun m => m.2.map (m.1, ·)) := by
  simp only [DebugSessionStart.enc, Api.default_DebugSessionStart, fld_mem, skipNone_mem', skipIf_mem', mems_cons, mems_nil, List.append_nil, List.append_assoc]
  try simp [value_isNull, mem_none, encOpt, encList, MessageType.enc, MessageType.code, TaskStatus.enc, TaskStatus.code, TaskDataKind.isNone]
  try simp [Spec.mem]

theorem new_default_ShowMessage [Ext]  :
    ShowMessage.enc (Api.default_ShowMessage) = .obj (([("type", some (.int 4)),
      ("message", some (.str "")),
      ("task", none),
      ("originId", none)] : List (String × Option Json)).filterMap fun m => m.2.map (m.1, ·)) := by
  simp only [ShowMessage.enc, Api.default_ShowMessage, fld_mem, skipNone_mem', skipIf_mem', mems_cons, mems_nil, List.append_nil, List.append_assoc]
  try simp [value_isNull, mem_none, encOpt, encList, MessageType.enc, MessageType.code, TaskStatus.enc, TaskStatus.code, TaskDataKind.isNone]
  try simp [Spec.mem]

theorem new_default_LogMessage [Ext]  :
    LogMessage.enc (Api.default_LogMessage) = .obj (([("type", some (.int 4)),
      ("task", none),
      ("originId", none),
      ("message", some (.str ""))] : List (String × Option Json)).filterMap fun m => m.2.map (m.1, ·)) := by
  simp only [LogMessage.enc, Api.default_LogMessage, fld_mem, skipNone_mem', skipIf_mem', mems_cons, mems_nil, List.append_nil, List.append_assoc]
  try simp [value_isNull, mem_none, encOpt, encList, MessageType.enc, MessageType.code, TaskStatus.enc, TaskStatus.code, TaskDataKind.isNone]
  try simp [Spec.mem]

theorem new_default_TaskId [Ext]  :
    TaskId.enc (Api.default_TaskId) = .obj (([("id", some (.str "")),
      ("parents", none)] : List (String × Option Json)).filterMap fun m => m.2.map (m.1, ·)) := by
  simp only [TaskId.enc, Api.default_TaskId, fld_mem, skipNone_mem', skipIf_mem', mems_cons, mems_nil, List.append_nil, List.append_assoc]
  try simp [value_isNull, mem_none, encOpt, encList, MessageType.enc, MessageType.code, TaskStatus.enc, TaskStatus.code, TaskDataKind.isNone]
  try simp [Spec.mem]

theorem new_default_TaskStart [Ext]  :
    TaskStart.enc (Api.default_TaskStart) = .obj (([("taskId", some (.obj [("id", .str "")])),
      ("eventTime", none),
      ("message", none),
      ("dataKind", none),
      ("data", none)] : List (String × Option Json)).filterMap fun m => m.2.map (m.1, ·)) := by
  simp only [TaskStart.enc, Api.default_TaskStart, TaskId.enc, Api.default_TaskId, fld_mem, skipNone_mem', skipIf_mem', mems_cons, mems_nil, List.append_nil, List.append_assoc]
  try simp [value_isNull, mem_none, encOpt, encList, MessageType.enc, MessageType.code, TaskStatus.enc, TaskStatus.code, TaskDataKind.isNone]
  try simp [Spec.mem]

theorem new_default_TaskFinish [Ext]  :
    TaskFinish.enc (Api.default_TaskFinish) = .obj (([("taskId", some (.obj [("id", .str "")])),
      ("eventTime", none),
      ("message", none),
      ("status", some (.int 1)),
      ("dataKind", none),
      ("data", none)] : List (String × Option Json)).filterMap fun m => m.2.map (m.1, ·)) := by
  simp only [TaskFinish.enc, Api.default_TaskFinish, TaskId.enc, Api.default_TaskId, fld_mem, skipNone_mem', skipIf_mem', mems_cons, mems_nil, List.append_nil, List.append_assoc]
  try simp [value_isNull, mem_none, encOpt, encList, MessageType.enc, MessageType.code, TaskStatus.enc, TaskStatus.code, TaskDataKind.isNone]
  try simp [Spec.mem]

theorem new_default_TaskProgress [Ext]  :
    TaskProgress.enc (Api.default_TaskProgress) = .obj (([("taskId", some (.obj [("id", .str "")])),
      ("eventTime", none),
      ("message", none),
      ("total", some (.null)),
      ("progress", some (.null)),
      ("unit", none),
      ("dataKind", none),
      ("data", none)] : List (String × Option Json)).filterMap fun m => m.2.map (m.1, ·)) := by
  simp only [TaskProgress.enc, Api.default_TaskProgress, TaskId.enc, Api.default_TaskId, fld_mem, skipNone_mem', skipIf_mem', mems_cons, mems_nil, List.append_nil, List.append_assoc]
  try simp [value_isNull, mem_none, encOpt, encList, MessageType.enc, MessageType.code, TaskStatus.enc, TaskStatus.code, TaskDataKind.isNone]
  try simp [Spec.mem]

theorem new_default_BuildTargetDidChange [Ext]  :
    BuildTargetDidChange.enc (Api.default_BuildTargetDidChange) = .obj (([("changes", some (.arr []))] : List (String × Option Json)).filterMap fun m => m.2.map (m.1, ·)) := by
  simp only [BuildTargetDidChange.enc, Api.default_BuildTargetDidChange, fld_mem, skipNone_mem', skipIf_mem', mems_cons, mems_nil, List.append_nil, List.append_assoc]
  try simp [value_isNull, mem_none, encOpt, encList, MessageType.enc, MessageType.code, TaskStatus.enc, TaskStatus.code, TaskDataKind.isNone]
  try simp [Spec.mem]

theorem new_default_CompileProvider [Ext]  :
    CompileProvider.enc (Api.default_CompileProvider) = .obj (([("languageIds", some (.arr []))] : List (String × Option Json)).filterMap fun m => m.2.map (m.1, ·)) := by
  simp only [CompileProvider.enc, Api.default_CompileProvider, fld_mem, skipNone_mem', skipIf_mem', mems_cons, mems_nil, List.append_nil, List.append_assoc]
  try simp [value_isNull, mem_none, encOpt, encList, MessageType.enc, MessageType.code, TaskStatus.enc, TaskStatus.code, TaskDataKind.isNone]
  try simp [Spec.mem]

theorem new_default_TestProvider [Ext]  :
    TestProvider.enc (Api.default_TestProvider) = .obj (([("languageIds", some (.arr []))] : List (String × Option Json)).filterMap fun m => m.2.map (m.1, ·)) := by
  simp only [TestProvider.enc, Api.default_TestProvider, fld_mem, skipNone_mem', skipIf_mem', mems_cons, mems_nil, List.append_nil, List.append_assoc]
  try simp [value_isNull, mem_none, encOpt, encList, MessageType.enc, MessageType.code, TaskStatus.enc, TaskStatus.code, TaskDataKind.isNone]
  try simp [Spec.mem]

theorem new_default_RunProvider [Ext]  :
    RunProvider.enc (Api.default_RunProvider) = .obj (([("languageIds", some (.arr []))] : List (String × Option Json)).filterMap fun m => m.2.map (m.1, ·)) := by
  simp only [RunProvider.enc, Api.default_RunProvider, fld_mem, skipNone_mem', skipIf_mem', mems_cons, mems_nil, List.append_nil, List.append_assoc]
  try simp [value_isNull, mem_none, encOpt, encList, MessageType.enc, MessageType.code, TaskStatus.enc, TaskStatus.code, TaskDataKind.isNone]
  try simp [Spec.mem]

theorem new_default_DebugProvider [Ext]  :
    DebugProvider.enc (Api.default_DebugProvider) = .obj (([("languageIds", some (.arr []))] : List (String × Option Json)).filterMap fun m => m.2.map (m.1, ·)) := by
  simp only [DebugProvider.enc, Api.default_DebugProvider, fld_mem, skipNone_mem', skipIf_mem', mems_cons, mems_nil, List.append_nil, List.append_assoc]
  try simp [value_isNull, mem_none, encOpt, encList, MessageType.enc, MessageType.code, TaskStatus.enc, TaskStatus.code, TaskDataKind.isNone]
  try simp [Spec.mem]

theorem new_default_ServerCapabilities [Ext]  :
    ServerCapabilities.enc (Api.default_ServerCapabilities) = .obj (([("compileProvider", none),
      ("testProvider", none),
      ("runProvider", none),
      ("debugProvider", none),
      ("inverseSourcesProvider", none),
      ("dependencySourcesProvider", none),
      ("dependencyModulesProvider", none),
      ("resourcesProvider", none),
      ("canReload", none),
      ("buildTargetChangedProvider", none)] : List (String × Option Json)).filterMap fun m => m.2.map (m.1, ·)) := by
  simp only [ServerCapabilities.enc, Api.default_ServerCapabilities, fld_mem, skipNone_mem', skipIf_mem', mems_cons, mems_nil, List.append_nil, List.append_assoc]
  try simp [value_isNull, mem_none, encOpt, encList, MessageType.enc, MessageType.code, TaskStatus.enc, TaskStatus.code, TaskDataKind.isNone]
  try simp [Spec.mem]

theorem new_default_InitializeBuildResult [Ext]  :
    InitializeBuildResult.enc (Api.default_InitializeBuildResult) = .obj (([("displayName", some (.str "")),
      ("version", some (.str "")),
      ("bspVersion", some (.str "")),
      ("capabilities", some (.obj [])),
      ("data", none)] : List (String × Option Json)).filterMap fun m => m.2.map (m.1, ·)) := by
  simp only [InitializeBuildResult.enc, Api.default_InitializeBuildResult, ServerCapabilities.enc, Api.default_ServerCapabilities, fld_mem, skipNone_mem', skipIf_mem', mems_cons, mems_nil, List.append_nil, List.append_assoc]
  try simp [value_isNull, mem_none, encOpt, encList, MessageType.enc, MessageType.code, TaskStatus.enc, TaskStatus.code, TaskDataKind.isNone]
  try simp [Spec.mem]

theorem new_default_BuildTargetCapabilities [Ext]  :
    BuildTargetCapabilities.enc (Api.default_BuildTargetCapabilities) = .obj (([("canCompile", some (.bool false)),
      ("canTest", some (.bool false)),
      ("canRun", some (.bool false)),
      ("canDebug", some (.bool false))] : List (String × Option Json)).filterMap fun m => m.2.map (m.1, ·)) := by
  simp only [BuildTargetCapabilities.enc, Api.default_BuildTargetCapabilities, fld_mem, skipNone_mem', skipIf_mem', mems_cons, mems_nil, List.append_nil, List.append_assoc]
  try simp [value_isNull, mem_none, encOpt, encList, MessageType.enc, MessageType.code, TaskStatus.enc, TaskStatus.code, TaskDataKind.isNone]
  try simp [Spec.mem]

theorem new_default_WorkspaceBuildTargetsResult [Ext]  :
    WorkspaceBuildTargetsResult.enc (Api.default_WorkspaceBuildTargetsResult) = .obj (([("targets", some (.arr []))] : List (String × Option Json)).filterMap fun m => m.2.map (m.1, ·)) := by
  simp only [WorkspaceBuildTargetsResult.enc, Api.default_WorkspaceBuildTargetsResult, fld_mem, skipNone_mem', skipIf_mem', mems_cons, mems_nil, List.append_nil, List.append_assoc]
  try simp [value_isNull, mem_none, encOpt, encList, MessageType.enc, MessageType.code, TaskStatus.enc, TaskStatus.code, TaskDataKind.isNone]
  try simp [Spec.mem]

theorem new_default_BuildTargetSourcesResult [Ext]  :
    BuildTargetSourcesResult.enc (Api.default_BuildTargetSourcesResult) = .obj (([("items", some (.arr []))] : List (String × Option Json)).filterMap fun m => m.2.map (m.1, ·)) := by
  simp only [BuildTargetSourcesResult.enc, Api.default_BuildTargetSourcesResult, fld_mem, skipNone_mem', skipIf_mem', mems_cons, mems_nil, List.append_nil, List.append_assoc]
  try simp [value_isNull, mem_none, encOpt, encList, MessageType.enc, MessageType.code, TaskStatus.enc, TaskStatus.code, TaskDataKind.isNone]
  try simp [Spec.mem]

theorem new_default_BuildTargetResourcesResult [Ext]  :
    BuildTargetResourcesResult.enc (Api.default_BuildTargetResourcesResult) = .obj (([("items", some (.arr []))] : List (String × Option Json)).filterMap fun m => m.2.map (m.1, ·)) := by
  simp only [BuildTargetResourcesResult.enc, Api.default_BuildTargetResourcesResult, fld_mem, skipNone_mem', skipIf_mem', mems_cons, mems_nil, List.append_nil, List.append_assoc]
  try simp [value_isNull, mem_none, encOpt, encList, MessageType.enc, MessageType.code, TaskStatus.enc, TaskStatus.code, TaskDataKind.isNone]
  try simp [Spec.mem]

theorem new_default_DependencyModule [Ext]  :
    DependencyModule.enc (Api.default_DependencyModule) = .obj (([("name", some (.str "")),
      ("version", some (.str "")),
      ("dataKind", some (.null)),
      ("data", some (.null))] : List (String × Option Json)).filterMap fun m => m.2.map (m.1, ·)) := by
  simp only [DependencyModule.enc, Api.default_DependencyModule, fld_mem, skipNone_mem', skipIf_mem', mems_cons, mems_nil, List.append_nil, List.append_assoc]
  try simp [value_isNull, mem_none, encOpt, encList, MessageType.enc, MessageType.code, TaskStatus.enc, TaskStatus.code, TaskDataKind.isNone]
  try simp [Spec.mem]

theorem new_default_BuildTargetDependencyModulesResult [Ext]  :
    BuildTargetDependencyModulesResult.enc (Api.default_BuildTargetDependencyModulesResult) = .obj (([("items", some (.arr []))] : List (String × Option Json)).filterMap fun m => m.2.map (m.1, ·)) := by
  simp only [BuildTargetDependencyModulesResult.enc, Api.default_BuildTargetDependencyModulesResult, fld_mem, skipNone_mem', skipIf_mem', mems_cons, mems_nil, List.append_nil, List.append_assoc]
  try simp [value_isNull, mem_none, encOpt, encList, MessageType.enc, MessageType.code, TaskStatus.enc, TaskStatus.code, TaskDataKind.isNone]
  try simp [Spec.mem]

theorem new_default_BuildTargetInverseSourcesResult [Ext]  :
    BuildTargetInverseSourcesResult.enc (Api.default_BuildTargetInverseSourcesResult) = .obj (([("targets", some (.arr []))] : List (String × Option Json)).filterMap fun m => m.2.map (m.1, ·)) := by
  simp only [BuildTargetInverseSourcesResult.enc, Api.default_BuildTargetInverseSourcesResult, fld_mem, skipNone_mem', skipIf_mem', mems_cons, mems_nil, List.append_nil, List.append_assoc]
  try simp [value_isNull, mem_none, encOpt, encList, MessageType.enc, MessageType.code, TaskStatus.enc, TaskStatus.code, TaskDataKind.isNone]
  try simp [Spec.mem]

theorem new_default_BuildTargetDependencySourcesResult [Ext]  :
    BuildTargetDependencySourcesResult.enc (Api.default_BuildTargetDependencySourcesResult) = .obj (([("items", some (.arr []))] : List (String × Option Json)).filterMap fun m => m.2.map (m.1, ·)) := by
  simp only [BuildTargetDependencySourcesResult.enc, Api.default_BuildTargetDependencySourcesResult, fld_mem, skipNone_mem', skipIf_mem', mems_cons, mems_nil, List.append_nil, List.append_assoc]
  try simp [value_isNull, mem_none, encOpt, encList, MessageType.enc, MessageType.code, TaskStatus.enc, TaskStatus.code, TaskDataKind.isNone]
  try simp [Spec.mem]

theorem new_BuildTargetCapabilities_new [Ext] (can_compile : Bool) (can_test : Bool) (can_run : Bool) (can_debug : Bool) :
    BuildTargetCapabilities.enc (Api.BuildTargetCapabilities.new can_compile can_test can_run can_debug) = .obj (([("canCompile", some (Json.bool can_compile)),
      ("canTest", some (Json.bool can_test)),
      ("canRun", some (Json.bool can_run)),
      ("canDebug", some (Json.bool can_debug))] : List (String × Option Json)).filterMap fun m => m.2.map (m.1, ·)) := by
  simp only [BuildTargetCapabilities.enc, Api.BuildTargetCapabilities.new, fld_mem, skipNone_mem', skipIf_mem', mems_cons, mems_nil, List.append_nil, List.append_assoc]
  try simp [value_isNull, mem_none, encOpt, encList, MessageType.enc, MessageType.code, TaskStatus.enc, TaskStatus.code, TaskDataKind.isNone]
  try simp [Spec.mem]

theorem new_BuildTargetCleanCacheResult_new [Ext] (message : Option String) (cleaned : Bool) :
    BuildTargetCleanCacheResult.enc (Api.BuildTargetCleanCacheResult.new message cleaned) = .obj (([("message", message.map Json.str),
      ("cleaned", some (Json.bool cleaned))] : List (String × Option Json)).filterMap fun m => m.2.map (m.1, ·)) := by
  simp only [BuildTargetCleanCacheResult.enc, Api.BuildTargetCleanCacheResult.new, fld_mem, skipNone_mem', skipIf_mem', mems_cons, mems_nil, List.append_nil, List.append_assoc]
  try simp [value_isNull, mem_none, encOpt, encList, MessageType.enc, MessageType.code, TaskStatus.enc, TaskStatus.code, TaskDataKind.isNone]
  try simp [Spec.mem]

theorem new_BuildTargetCleanCacheResult_new_simple [Ext] (cleaned : Bool) :
    BuildTargetCleanCacheResult.enc (Api.BuildTargetCleanCacheResult.new_simple cleaned) = .obj (([("message", none),
      ("cleaned", some (Json.bool cleaned))] : List (String × Option Json)).filterMap fun m => m.2.map (m.1, ·)) := by
  simp only [BuildTargetCleanCacheResult.enc, Api.BuildTargetCleanCacheResult.new_simple, fld_mem, skipNone_mem', skipIf_mem', mems_cons, mems_nil, List.append_nil, List.append_assoc]
  try simp [value_isNull, mem_none, encOpt, encList, MessageType.enc, MessageType.code, TaskStatus.enc, TaskStatus.code, TaskDataKind.isNone]
  try simp [Spec.mem]

theorem new_BuildTargetCompile_new [Ext] (target : BuildTargetIdentifier) (origin_id : Option String) (arguments : Option String) :
    BuildTargetCompile.enc (Api.BuildTargetCompile.new target origin_id arguments) = .obj (([("target", some (BuildTargetIdentifier.enc target)),
      ("originId", origin_id.map Json.str),
      ("arguments", arguments.map Json.str)] : List (String × Option Json)).filterMap fun m => m.2.map (m.1, ·)) := by
  simp only [BuildTargetCompile.enc, Api.BuildTargetCompile.new, fld_mem, skipNone_mem', skipIf_mem', mems_cons, mems_nil, List.append_nil, List.append_assoc]
  try simp [value_isNull, mem_none, encOpt, encList, MessageType.enc, MessageType.code, TaskStatus.enc, TaskStatus.code, TaskDataKind.isNone]
  try simp [Spec.mem]

theorem new_BuildTargetCompile_new_simple [Ext] (target : BuildTargetIdentifier) :
    BuildTargetCompile.enc (Api.BuildTargetCompile.new_simple target) = .obj (([("target", some (BuildTargetIdentifier.enc target)),
      ("originId", none),
      ("arguments", none)] : List (String × Option Json)).filterMap fun m => m.2.map (m.1, ·)) := by
  simp only [BuildTargetCompile.enc, Api.BuildTargetCompile.new_simple, fld_mem, skipNone_mem', skipIf_mem', mems_cons, mems_nil, List.append_nil, List.append_assoc]
  try simp [value_isNull, mem_none, encOpt, encList, MessageType.enc, MessageType.code, TaskStatus.enc, TaskStatus.code, TaskDataKind.isNone]
  try simp [Spec.mem]

theorem new_BuildTargetCompileResult_new [Ext] (origin_id : Option String) (status_code : UInt64) (data_kind : Option String) (data : Option Value) :
    BuildTargetCompileResult.enc (Api.BuildTargetCompileResult.new origin_id status_code data_kind data) = .obj (([("originId", origin_id.map Json.str),
      ("statusCode", some (encUsize status_code)),
      ("dataKind", data_kind.map Json.str),
      ("data", data.map Value.json)] : List (String × Option Json)).filterMap fun m => m.2.map (m.1, ·)) := by
  simp only [BuildTargetCompileResult.enc, Api.BuildTargetCompileResult.new, fld_mem, skipNone_mem', skipIf_mem', mems_cons, mems_nil, List.append_nil, List.append_assoc]
  try simp [value_isNull, mem_none, encOpt, encList, MessageType.enc, MessageType.code, TaskStatus.enc, TaskStatus.code, TaskDataKind.isNone]
  try simp [Spec.mem]

theorem new_BuildTargetCompileResult_new_simple [Ext] (status_code : UInt64) :
    BuildTargetCompileResult.enc (Api.BuildTargetCompileResult.new_simple status_code) = .obj (([("originId", none),
      ("statusCode", some (encUsize status_code)),
      ("dataKind", none),
      ("data", none)] : List (String × Option Json)).filterMap fun m => m.2.map (m.1, ·)) := by
  simp only [BuildTargetCompileResult.enc, Api.BuildTargetCompileResult.new_simple, fld_mem, skipNone_mem', skipIf_mem', mems_cons, mems_nil, List.append_nil, List.append_assoc]
  try simp [value_isNull, mem_none, encOpt, encList, MessageType.enc, MessageType.code, TaskStatus.enc, TaskStatus.code, TaskDataKind.isNone]
  try simp [Spec.mem]

theorem new_BuildTargetDependencyModulesResult_new [Ext] (items : List DependencyModulesItem) :
    BuildTargetDependencyModulesResult.enc (Api.BuildTargetDependencyModulesResult.new items) = .obj (([("items", some (encList DependencyModulesItem.enc items))] : List (String × Option Json)).filterMap fun m => m.2.map (m.1, ·)) := by
  simp only [BuildTargetDependencyModulesResult.enc, Api.BuildTargetDependencyModulesResult.new, fld_mem, skipNone_mem', skipIf_mem', mems_cons, mems_nil, List.append_nil, List.append_assoc]
  try simp [value_isNull, mem_none, encOpt, encList, MessageType.enc, MessageType.code, TaskStatus.enc, TaskStatus.code, TaskDataKind.isNone]
  try simp [Spec.mem]

theorem new_DependencyModulesItem_new [Ext] (target : BuildTargetIdentifier) (modules : List DependencyModule) :
    DependencyModulesItem.enc (Api.DependencyModulesItem.new target modules) = .obj (([("target", some (BuildTargetIdentifier.enc target)),
      ("modules", some (encList DependencyModule.enc modules))] : List (String × Option Json)).filterMap fun m => m.2.map (m.1, ·)) := by
  simp only [DependencyModulesItem.enc, Api.DependencyModulesItem.new, fld_mem, skipNone_mem', skipIf_mem', mems_cons, mems_nil, List.append_nil, List.append_assoc]
  try simp [value_isNull, mem_none, encOpt, encList, MessageType.enc, MessageType.code, TaskStatus.enc, TaskStatus.code, TaskDataKind.isNone]
  try simp [Spec.mem]

theorem new_DependencyModule_new [Ext] (name : String) (version : String) (data_kind : Option String) (data : Option Value) :
    DependencyModule.enc (Api.DependencyModule.new name version data_kind data) = .obj (([("name", some (Json.str name)),
      ("version", some (Json.str version)),
      ("dataKind", some (encOpt Json.str data_kind)),
      ("data", some (encOpt Value.json data))] : List (String × Option Json)).filterMap fun m => m.2.map (m.1, ·)) := by
  simp only [DependencyModule.enc, Api.DependencyModule.new, fld_mem, skipNone_mem', skipIf_mem', mems_cons, mems_nil, List.append_nil, List.append_assoc]
  try simp [value_isNull, mem_none, encOpt, encList, MessageType.enc, MessageType.code, TaskStatus.enc, TaskStatus.code, TaskDataKind.isNone]
  try simp [Spec.mem]

theorem new_DependencyModule_new_simple [Ext] (name : String) (version : String) :
    DependencyModule.enc (Api.DependencyModule.new_simple name version) = .obj (([("name", some (Json.str name)),
      ("version", some (Json.str version)),
      ("dataKind", some (.null)),
      ("data", some (.null))] : List (String × Option Json)).filterMap fun m => m.2.map (m.1, ·)) := by
  simp only [DependencyModule.enc, Api.DependencyModule.new_simple, fld_mem, skipNone_mem', skipIf_mem', mems_cons, mems_nil, List.append_nil, List.append_assoc]
  try simp [value_isNull, mem_none, encOpt, encList, MessageType.enc, MessageType.code, TaskStatus.enc, TaskStatus.code, TaskDataKind.isNone]
  try simp [Spec.mem]

theorem new_BuildTargetDependencySources_new [Ext] (text_document : TextDocumentIdentifier) :
    BuildTargetDependencySources.enc (Api.BuildTargetDependencySources.new text_document) = .obj (([("textDocument", some (TextDocumentIdentifier.enc text_document))] : List (String × Option Json)).filterMap fun m => m.2.map (m.1, ·)) := by
  simp only [BuildTargetDependencySources.enc, Api.BuildTargetDependencySources.new, fld_mem, skipNone_mem', skipIf_mem', mems_cons, mems_nil, List.append_nil, List.append_assoc]
  try simp [value_isNull, mem_none, encOpt, encList, MessageType.enc, MessageType.code, TaskStatus.enc, TaskStatus.code, TaskDataKind.isNone]
  try simp [Spec.mem]

theorem new_BuildTargetEvent_new [Ext] (target : BuildTargetIdentifier) (kind : Option BuildTargetEventKind) (data : Option Value) :
    BuildTargetEvent.enc (Api.BuildTargetEvent.new target kind data) = .obj (([("target", some (BuildTargetIdentifier.enc target)),
      ("kind", kind.map BuildTargetEventKind.enc),
      ("data", data.map Value.json)] : List (String × Option Json)).filterMap fun m => m.2.map (m.1, ·)) := by
  simp only [BuildTargetEvent.enc, Api.BuildTargetEvent.new, fld_mem, skipNone_mem', skipIf_mem', mems_cons, mems_nil, List.append_nil, List.append_assoc]
  try simp [value_isNull, mem_none, encOpt, encList, MessageType.enc, MessageType.code, TaskStatus.enc, TaskStatus.code, TaskDataKind.isNone]
  try simp [Spec.mem]

theorem new_BuildTargetEvent_new_simple [Ext] (target : BuildTargetIdentifier) :
    BuildTargetEvent.enc (Api.BuildTargetEvent.new_simple target) = .obj (([("target", some (BuildTargetIdentifier.enc target)),
      ("kind", none),
      ("data", none)] : List (String × Option Json)).filterMap fun m => m.2.map (m.1, ·)) := by
  simp only [BuildTargetEvent.enc, Api.BuildTargetEvent.new_simple, fld_mem, skipNone_mem', skipIf_mem', mems_cons, mems_nil, List.append_nil, List.append_assoc]
  try simp [value_isNull, mem_none, encOpt, encList, MessageType.enc, MessageType.code, TaskStatus.enc, TaskStatus.code, TaskDataKind.isNone]
  try simp [Spec.mem]

theorem new_BuildTargetIdentifier_new [Ext] (uri : Ext.Url) :
    BuildTargetIdentifier.enc (Api.BuildTargetIdentifier.new uri) = .obj (([("uri", some (encUrl uri))] : List (String × Option Json)).filterMap fun m => m.2.map (m.1, ·)) := by
  simp only [BuildTargetIdentifier.enc, Api.BuildTargetIdentifier.new, fld_mem, skipNone_mem', skipIf_mem', mems_cons, mems_nil, List.append_nil, List.append_assoc]
  try simp [value_isNull, mem_none, encOpt, encList, MessageType.enc, MessageType.code, TaskStatus.enc, TaskStatus.code, TaskDataKind.isNone]
  try simp [Spec.mem]

theorem new_TextDocumentInverseSources_new [Ext] (text_document : TextDocumentIdentifier) :
    TextDocumentInverseSources.enc (Api.TextDocumentInverseSources.new text_document) = .obj (([("textDocument", some (TextDocumentIdentifier.enc text_document))] : List (String × Option Json)).filterMap fun m => m.2.map (m.1, ·)) := by
  simp only [TextDocumentInverseSources.enc, Api.TextDocumentInverseSources.new, fld_mem, skipNone_mem', skipIf_mem', mems_cons, mems_nil, List.append_nil, List.append_assoc]
  try simp [value_isNull, mem_none, encOpt, encList, MessageType.enc, MessageType.code, TaskStatus.enc, TaskStatus.code, TaskDataKind.isNone]
  try simp [Spec.mem]

theorem new_BuildTargetResources_new [Ext] (targets : List BuildTargetIdentifier) :
    BuildTargetResources.enc (Api.BuildTargetResources.new targets) = .obj (([("targets", some (encList BuildTargetIdentifier.enc targets))] : List (String × Option Json)).filterMap fun m => m.2.map (m.1, ·)) := by
  simp only [BuildTargetResources.enc, Api.BuildTargetResources.new, fld_mem, skipNone_mem', skipIf_mem', mems_cons, mems_nil, List.append_nil, List.append_assoc]
  try simp [value_isNull, mem_none, encOpt, encList, MessageType.enc, MessageType.code, TaskStatus.enc, TaskStatus.code, TaskDataKind.isNone]
  try simp [Spec.mem]

theorem new_BuildTargetResourcesResult_new [Ext] (items : List Resources) :
    BuildTargetResourcesResult.enc (Api.BuildTargetResourcesResult.new items) = .obj (([("items", some (encList Resources.enc items))] : List (String × Option Json)).filterMap fun m => m.2.map (m.1, ·)) := by
  simp only [BuildTargetResourcesResult.enc, Api.BuildTargetResourcesResult.new, fld_mem, skipNone_mem', skipIf_mem', mems_cons, mems_nil, List.append_nil, List.append_assoc]
  try simp [value_isNull, mem_none, encOpt, encList, MessageType.enc, MessageType.code, TaskStatus.enc, TaskStatus.code, TaskDataKind.isNone]
  try simp [Spec.mem]

theorem new_Resources_new [Ext] (target : BuildTargetIdentifier) (resources : List String) :
    Resources.enc (Api.Resources.new target resources) = .obj (([("target", some (BuildTargetIdentifier.enc target)),
      ("resources", some (encList Json.str resources))] : List (String × Option Json)).filterMap fun m => m.2.map (m.1, ·)) := by
  simp only [Resources.enc, Api.Resources.new, fld_mem, skipNone_mem', skipIf_mem', mems_cons, mems_nil, List.append_nil, List.append_assoc]
  try simp [value_isNull, mem_none, encOpt, encList, MessageType.enc, MessageType.code, TaskStatus.enc, TaskStatus.code, TaskDataKind.isNone]
  try simp [Spec.mem]

theorem new_BuildTargetRun_new [Ext] (target : BuildTargetIdentifier) (origin_id : Option String) (arguments : Option String) (data_kind : Option String) (data : Option Value) :
    BuildTargetRun.enc (Api.BuildTargetRun.new target origin_id arguments data_kind data) = .obj (([("target", some (BuildTargetIdentifier.enc target)),
      ("originId", origin_id.map Json.str),
      ("arguments", arguments.map Json.str),
      ("dataKind", data_kind.map Json.str),
      ("data", data.map Value.json)] : List (String × Option Json)).filterMap fun m => m.2.map (m.1, ·)) := by
  simp only [BuildTargetRun.enc, Api.BuildTargetRun.new, fld_mem, skipNone_mem', skipIf_mem', mems_cons, mems_nil, List.append_nil, List.append_assoc]
  try simp [value_isNull, mem_none, encOpt, encList, MessageType.enc, MessageType.code, TaskStatus.enc, TaskStatus.code, TaskDataKind.isNone]
  try simp [Spec.mem]

theorem new_BuildTargetRun_new_simple [Ext] (target : BuildTargetIdentifier) :
    BuildTargetRun.enc (Api.BuildTargetRun.new_simple target) = .obj (([("target", some (BuildTargetIdentifier.enc target)),
      ("originId", none),
      ("arguments", none),
      ("dataKind", none),
      ("data", none)] : List (String × Option Json)).filterMap fun m => m.2.map (m.1, ·)) := by
  simp only [BuildTargetRun.enc, Api.BuildTargetRun.new_simple, fld_mem, skipNone_mem', skipIf_mem', mems_cons, mems_nil, List.append_nil, List.append_assoc]
  try simp [value_isNull, mem_none, encOpt, encList, MessageType.enc, MessageType.code, TaskStatus.enc, TaskStatus.code, TaskDataKind.isNone]
  try simp [Spec.mem]

theorem new_BuildTargetRunResult_new [Ext] (origin_id : Option String) (status_code : UInt64) :
    BuildTargetRunResult.enc (Api.BuildTargetRunResult.new origin_id status_code) = .obj (([("originId", origin_id.map Json.str),
      ("statusCode", some (encUsize status_code))] : List (String × Option Json)).filterMap fun m => m.2.map (m.1, ·)) := by
  simp only [BuildTargetRunResult.enc, Api.BuildTargetRunResult.new, fld_mem, skipNone_mem', skipIf_mem', mems_cons, mems_nil, List.append_nil, List.append_assoc]
  try simp [value_isNull, mem_none, encOpt, encList, MessageType.enc, MessageType.code, TaskStatus.enc, TaskStatus.code, TaskDataKind.isNone]
  try simp [Spec.mem]

theorem new_BuildTargetSources_new [Ext] (targets : List BuildTargetIdentifier) :
    BuildTargetSources.enc (Api.BuildTargetSources.new targets) = .obj (([("targets", some (encList BuildTargetIdentifier.enc targets))] : List (String × Option Json)).filterMap fun m => m.2.map (m.1, ·)) := by
  simp only [BuildTargetSources.enc, Api.BuildTargetSources.new, fld_mem, skipNone_mem', skipIf_mem', mems_cons, mems_nil, List.append_nil, List.append_assoc]
  try simp [value_isNull, mem_none, encOpt, encList, MessageType.enc, MessageType.code, TaskStatus.enc, TaskStatus.code, TaskDataKind.isNone]
  try simp [Spec.mem]

theorem new_BuildTargetSourcesResult_new [Ext] (items : List SourcesCollection) :
    BuildTargetSourcesResult.enc (Api.BuildTargetSourcesResult.new items) = .obj (([("items", some (encList SourcesCollection.enc items))] : List (String × Option Json)).filterMap fun m => m.2.map (m.1, ·)) := by
  simp only [BuildTargetSourcesResult.enc, Api.BuildTargetSourcesResult.new, fld_mem, skipNone_mem', skipIf_mem', mems_cons, mems_nil, List.append_nil, List.append_assoc]
  try simp [value_isNull, mem_none, encOpt, encList, MessageType.enc, MessageType.code, TaskStatus.enc, TaskStatus.code, TaskDataKind.isNone]
  try simp [Spec.mem]

theorem new_SourcesCollection_new [Ext] (target : BuildTargetIdentifier) (sources : List Sources) :
    SourcesCollection.enc (Api.SourcesCollection.new target sources) = .obj (([("target", some (BuildTargetIdentifier.enc target)),
      ("sources", some (encList Sources.enc sources))] : List (String × Option Json)).filterMap fun m => m.2.map (m.1, ·)) := by
  simp only [SourcesCollection.enc, Api.SourcesCollection.new, fld_mem, skipNone_mem', skipIf_mem', mems_cons, mems_nil, List.append_nil, List.append_assoc]
  try simp [value_isNull, mem_none, encOpt, encList, MessageType.enc, MessageType.code, TaskStatus.enc, TaskStatus.code, TaskDataKind.isNone]
  try simp [Spec.mem]

theorem new_Sources_new [Ext] (uri : Ext.Url) (kind : SourceKind) (generated : Bool) :
    Sources.enc (Api.Sources.new uri kind generated) = .obj (([("uri", some (encUrl uri)),
      ("kind", some (SourceKind.enc kind)),
      ("generated", some (Json.bool generated))] : List (String × Option Json)).filterMap fun m => m.2.map (m.1, ·)) := by
  simp only [Sources.enc, Api.Sources.new, fld_mem, skipNone_mem', skipIf_mem', mems_cons, mems_nil, List.append_nil, List.append_assoc]
  try simp [value_isNull, mem_none, encOpt, encList, MessageType.enc, MessageType.code, TaskStatus.enc, TaskStatus.code, TaskDataKind.isNone]
  try simp [Spec.mem]

theorem new_BuildTargetTest_new [Ext] (target : BuildTargetIdentifier) (origin_id : Option String) (arguments : Option String) (data_kind : Option String) (data : Option Value) :
    BuildTargetTest.enc (Api.BuildTargetTest.new target origin_id arguments data_kind data) = .obj (([("target", some (BuildTargetIdentifier.enc target)),
      ("originId", origin_id.map Json.str),
      ("arguments", arguments.map Json.str),
      ("dataKind", data_kind.map Json.str),
      ("data", data.map Value.json)] : List (String × Option Json)).filterMap fun m => m.2.map (m.1, ·)) := by
  simp only [BuildTargetTest.enc, Api.BuildTargetTest.new, fld_mem, skipNone_mem', skipIf_mem', mems_cons, mems_nil, List.append_nil, List.append_assoc]
  try simp [value_isNull, mem_none, encOpt, encList, MessageType.enc, MessageType.code, TaskStatus.enc, TaskStatus.code, TaskDataKind.isNone]
  try simp [Spec.mem]

theorem new_BuildTargetTest_new_simple [Ext] (target : BuildTargetIdentifier) :
    BuildTargetTest.enc (Api.BuildTargetTest.new_simple target) = .obj (([("target", some (BuildTargetIdentifier.enc target)),
      ("originId", none),
      ("arguments", none),
      ("dataKind", none),
      ("data", none)] : List (String × Option Json)).filterMap fun m => m.2.map (m.1, ·)) := by
  simp only [BuildTargetTest.enc, Api.BuildTargetTest.new_simple, fld_mem, skipNone_mem', skipIf_mem', mems_cons, mems_nil, List.append_nil, List.append_assoc]
  try simp [value_isNull, mem_none, encOpt, encList, MessageType.enc, MessageType.code, TaskStatus.enc, TaskStatus.code, TaskDataKind.isNone]
  try simp [Spec.mem]

theorem new_BuildTargetTestResult_new [Ext] (origin_id : Option String) (status_code : UInt64) (data_kind : Option String) (data : Option Value) :
    BuildTargetTestResult.enc (Api.BuildTargetTestResult.new origin_id status_code data_kind data) = .obj (([("originId", origin_id.map Json.str),
      ("statusCode", some (encUsize status_code)),
      ("dataKind", data_kind.map Json.str),
      ("data", data.map Value.json)] : List (String × Option Json)).filterMap fun m => m.2.map (m.1, ·)) := by
  simp only [BuildTargetTestResult.enc, Api.BuildTargetTestResult.new, fld_mem, skipNone_mem', skipIf_mem', mems_cons, mems_nil, List.append_nil, List.append_assoc]
  try simp [value_isNull, mem_none, encOpt, encList, MessageType.enc, MessageType.code, TaskStatus.enc, TaskStatus.code, TaskDataKind.isNone]
  try simp [Spec.mem]

theorem new_BuildTargetTestResult_new_simple [Ext] (status_code : UInt64) :
    BuildTargetTestResult.enc (Api.BuildTargetTestResult.new_simple status_code) = .obj (([("originId", none),
      ("statusCode", some (encUsize status_code)),
      ("dataKind", none),
      ("data", none)] : List (String × Option Json)).filterMap fun m => m.2.map (m.1, ·)) := by
  simp only [BuildTargetTestResult.enc, Api.BuildTargetTestResult.new_simple, fld_mem, skipNone_mem', skipIf_mem', mems_cons, mems_nil, List.append_nil, List.append_assoc]
  try simp [value_isNull, mem_none, encOpt, encList, MessageType.enc, MessageType.code, TaskStatus.enc, TaskStatus.code, TaskDataKind.isNone]
  try simp [Spec.mem]

theorem new_ClientCapabilities_new [Ext] (language_ids : List String) :
    ClientCapabilities.enc (Api.ClientCapabilities.new language_ids) = .obj (([("languageIds", some (encList Json.str language_ids))] : List (String × Option Json)).filterMap fun m => m.2.map (m.1, ·)) := by
  simp only [ClientCapabilities.enc, Api.ClientCapabilities.new, fld_mem, skipNone_mem', skipIf_mem', mems_cons, mems_nil, List.append_nil, List.append_assoc]
  try simp [value_isNull, mem_none, encOpt, encList, MessageType.enc, MessageType.code, TaskStatus.enc, TaskStatus.code, TaskDataKind.isNone]
  try simp [Spec.mem]

theorem new_DebugSessionStart_new [Ext] (targets : List BuildTargetIdentifier) (data_kind : String) (data : Value) :
    DebugSessionStart.enc (Api.DebugSessionStart.new targets data_kind data) = .obj (([("targets", some (encList BuildTargetIdentifier.enc targets)),
      ("dataKind", some (Json.str data_kind)),
      ("data", if data = Value.null then none else some data.json)] : List (String × Option Json)).filterMap fun m => m.2.map (m.1, ·)) := by
  simp only [DebugSessionStart.enc, Api.DebugSessionStart.new, fld_mem, skipNone_mem', skipIf_mem', mems_cons, mems_nil, List.append_nil, List.append_assoc]
  try simp [value_isNull, mem_none, encOpt, encList, MessageType.enc, MessageType.code, TaskStatus.enc, TaskStatus.code, TaskDataKind.isNone]
  try simp [Spec.mem]

theorem new_DebugSessionStartResult_new [Ext] (uri : Ext.Url) :
    DebugSessionStartResult.enc (Api.DebugSessionStartResult.new uri) = .obj (([("uri", some (encUrl uri))] : List (String × Option Json)).filterMap fun m => m.2.map (m.1, ·)) := by
  simp only [DebugSessionStartResult.enc, Api.DebugSessionStartResult.new, fld_mem, skipNone_mem', skipIf_mem', mems_cons, mems_nil, List.append_nil, List.append_assoc]
  try simp [value_isNull, mem_none, encOpt, encList, MessageType.enc, MessageType.code, TaskStatus.enc, TaskStatus.code, TaskDataKind.isNone]
  try simp [Spec.mem]

theorem new_InitializeBuild_new [Ext] (display_name : String) (version : String) (bsp_version : String) (root_uri : Ext.Url) (capabilities : ClientCapabilities) (data : Value) :
    InitializeBuild.enc (Api.InitializeBuild.new display_name version bsp_version root_uri capabilities data) = .obj (([("displayName", some (Json.str display_name)),
      ("version", if version = "" then none else some (Json.str version)),
      ("bspVersion", if bsp_version = "" then none else some (Json.str bsp_version)),
      ("rootUri", some (encUrl root_uri)),
      ("capabilities", some (ClientCapabilities.enc capabilities)),
      ("data", some data.json)] : List (String × Option Json)).filterMap fun m => m.2.map (m.1, ·)) := by
  simp only [InitializeBuild.enc, Api.InitializeBuild.new, fld_mem, skipNone_mem', skipIf_mem', mems_cons, mems_nil, List.append_nil, List.append_assoc]
  try simp [value_isNull, mem_none, encOpt, encList, MessageType.enc, MessageType.code, TaskStatus.enc, TaskStatus.code, TaskDataKind.isNone]
  try simp [Spec.mem]

theorem new_InitializeBuild_new_simple [Ext] (display_name : String) (version : String) (bsp_version : String) (root_uri : Ext.Url) (capabilities : ClientCapabilities) :
    InitializeBuild.enc (Api.InitializeBuild.new_simple display_name version bsp_version root_uri capabilities) = .obj (([("displayName", some (Json.str display_name)),
      ("version", if version = "" then none else some (Json.str version)),
      ("bspVersion", if bsp_version = "" then none else some (Json.str bsp_version)),
      ("rootUri", some (encUrl root_uri)),
      ("capabilities", some (ClientCapabilities.enc capabilities)),
      ("data", none)] : List (String × Option Json)).filterMap fun m => m.2.map (m.1, ·)) := by
  simp only [InitializeBuild.enc, Api.InitializeBuild.new_simple, fld_mem, skipNone_mem', skipIf_mem', mems_cons, mems_nil, List.append_nil, List.append_assoc]
  try simp [value_isNull, mem_none, encOpt, encList, MessageType.enc, MessageType.code, TaskStatus.enc, TaskStatus.code, TaskDataKind.isNone]
  try simp [Spec.mem]

theorem new_InitializeBuildResult_new [Ext] (display_name : String) (version : String) (bsp_version : String) (capabilities : ServerCapabilities) (data : Value) :
    InitializeBuildResult.enc (Api.InitializeBuildResult.new display_name version bsp_version capabilities data) = .obj (([("displayName", some (Json.str display_name)),
      ("version", some (Json.str version)),
      ("bspVersion", some (Json.str bsp_version)),
      ("capabilities", some (ServerCapabilities.enc capabilities)),
      ("data", some data.json)] : List (String × Option Json)).filterMap fun m => m.2.map (m.1, ·)) := by
  simp only [InitializeBuildResult.enc, Api.InitializeBuildResult.new, fld_mem, skipNone_mem', skipIf_mem', mems_cons, mems_nil, List.append_nil, List.append_assoc]
  try simp [value_isNull, mem_none, encOpt, encList, MessageType.enc, MessageType.code, TaskStatus.enc, TaskStatus.code, TaskDataKind.isNone]
  try simp [Spec.mem]

theorem new_InitializeBuildResult_new_simple [Ext] (display_name : String) (version : String) (bsp_version : String) (capabilities : ServerCapabilities) :
    InitializeBuildResult.enc (Api.InitializeBuildResult.new_simple display_name version bsp_version capabilities) = .obj (([("displayName", some (Json.str display_name)),
      ("version", some (Json.str version)),
      ("bspVersion", some (Json.str bsp_version)),
      ("capabilities", some (ServerCapabilities.enc capabilities)),
      ("data", none)] : List (String × Option Json)).filterMap fun m => m.2.map (m.1, ·)) := by
  simp only [InitializeBuildResult.enc, Api.InitializeBuildResult.new_simple, fld_mem, skipNone_mem', skipIf_mem', mems_cons, mems_nil, List.append_nil, List.append_assoc]
  try simp [value_isNull, mem_none, encOpt, encList, MessageType.enc, MessageType.code, TaskStatus.enc, TaskStatus.code, TaskDataKind.isNone]
  try simp [Spec.mem]

theorem new_LogMessage_new [Ext] (typ : MessageType) (msg : String) (task : Option TaskId) (orid : Option String) :
    LogMessage.enc (Api.LogMessage.new typ msg task orid) = .obj (([("type", some (MessageType.enc typ)),
      ("task", task.map TaskId.enc),
      ("originId", orid.map Json.str),
      ("message", some (Json.str msg))] : List (String × Option Json)).filterMap fun m => m.2.map (m.1, ·)) := by
  simp only [LogMessage.enc, Api.LogMessage.new, fld_mem, skipNone_mem', skipIf_mem', mems_cons, mems_nil, List.append_nil, List.append_assoc]
  try simp [value_isNull, mem_none, encOpt, encList, MessageType.enc, MessageType.code, TaskStatus.enc, TaskStatus.code, TaskDataKind.isNone]
  try simp [Spec.mem]

theorem new_LogMessage_info [Ext] (msg : String) (task : Option TaskId) (orid : Option String) :
    LogMessage.enc (Api.LogMessage.info msg task orid) = .obj (([("type", some (.int 3)),
      ("task", task.map TaskId.enc),
      ("originId", orid.map Json.str),
      ("message", some (Json.str msg))] : List (String × Option Json)).filterMap fun m => m.2.map (m.1, ·)) := by
  simp only [LogMessage.enc, Api.LogMessage.info, Api.LogMessage.new, fld_mem, skipNone_mem', skipIf_mem', mems_cons, mems_nil, List.append_nil, List.append_assoc]
  try simp [value_isNull, mem_none, encOpt, encList, MessageType.enc, MessageType.code, TaskStatus.enc, TaskStatus.code, TaskDataKind.isNone]
  try simp [Spec.mem]

theorem new_LogMessage_log [Ext] (msg : String) (task : Option TaskId) (orid : Option String) :
    LogMessage.enc (Api.LogMessage.log msg task orid) = .obj (([("type", some (.int 4)),
      ("task", task.map TaskId.enc),
      ("originId", orid.map Json.str),
      ("message", some (Json.str msg))] : List (String × Option Json)).filterMap fun m => m.2.map (m.1, ·)) := by
  simp only [LogMessage.enc, Api.LogMessage.log, Api.LogMessage.new, fld_mem, skipNone_mem', skipIf_mem', mems_cons, mems_nil, List.append_nil, List.append_assoc]
  try simp [value_isNull, mem_none, encOpt, encList, MessageType.enc, MessageType.code, TaskStatus.enc, TaskStatus.code, TaskDataKind.isNone]
  try simp [Spec.mem]

theorem new_LogMessage_warn [Ext] (msg : String) (task : Option TaskId) (orid : Option String) :
    LogMessage.enc (Api.LogMessage.warn msg task orid) = .obj (([("type", some (.int 2)),
      ("task", task.map TaskId.enc),
      ("originId", orid.map Json.str),
      ("message", some (Json.str msg))] : List (String × Option Json)).filterMap fun m => m.2.map (m.1, ·)) := by
  simp only [LogMessage.enc, Api.LogMessage.warn, Api.LogMessage.new, fld_mem, skipNone_mem', skipIf_mem', mems_cons, mems_nil, List.append_nil, List.append_assoc]
  try simp [value_isNull, mem_none, encOpt, encList, MessageType.enc, MessageType.code, TaskStatus.enc, TaskStatus.code, TaskDataKind.isNone]
  try simp [Spec.mem]

theorem new_LogMessage_error [Ext] (msg : String) (task : Option TaskId) (orid : Option String) :
    LogMessage.enc (Api.LogMessage.error msg task orid) = .obj (([("type", some (.int 1)),
      ("task", task.map TaskId.enc),
      ("originId", orid.map Json.str),
      ("message", some (Json.str msg))] : List (String × Option Json)).filterMap fun m => m.2.map (m.1, ·)) := by
  simp only [LogMessage.enc, Api.LogMessage.error, Api.LogMessage.new, fld_mem, skipNone_mem', skipIf_mem', mems_cons, mems_nil, List.append_nil, List.append_assoc]
  try simp [value_isNull, mem_none, encOpt, encList, MessageType.enc, MessageType.code, TaskStatus.enc, TaskStatus.code, TaskDataKind.isNone]
  try simp [Spec.mem]

theorem new_ShowMessage_new [Ext] (typ : MessageType) (msg : String) (task : Option TaskId) (orid : Option String) :
    ShowMessage.enc (Api.ShowMessage.new typ msg task orid) = .obj (([("type", some (MessageType.enc typ)),
      ("message", some (Json.str msg)),
      ("task", task.map TaskId.enc),
      ("originId", orid.map Json.str)] : List (String × Option Json)).filterMap fun m => m.2.map (m.1, ·)) := by
  simp only [ShowMessage.enc, Api.ShowMessage.new, fld_mem, skipNone_mem', skipIf_mem', mems_cons, mems_nil, List.append_nil, List.append_assoc]
  try simp [value_isNull, mem_none, encOpt, encList, MessageType.enc, MessageType.code, TaskStatus.enc, TaskStatus.code, TaskDataKind.isNone]
  try simp [Spec.mem]

theorem new_ShowMessage_info [Ext] (msg : String) (task : Option TaskId) (orid : Option String) :
    ShowMessage.enc (Api.ShowMessage.info msg task orid) = .obj (([("type", some (.int 3)),
      ("message", some (Json.str msg)),
      ("task", task.map TaskId.enc),
      ("originId", orid.map Json.str)] : List (String × Option Json)).filterMap fun m => m.2.map (m.1, ·)) := by
  simp only [ShowMessage.enc, Api.ShowMessage.info, Api.ShowMessage.new, fld_mem, skipNone_mem', skipIf_mem', mems_cons, mems_nil, List.append_nil, List.append_assoc]
  try simp [value_isNull, mem_none, encOpt, encList, MessageType.enc, MessageType.code, TaskStatus.enc, TaskStatus.code, TaskDataKind.isNone]
  try simp [Spec.mem]

theorem new_ShowMessage_log [Ext] (msg : String) (task : Option TaskId) (orid : Option String) :
    ShowMessage.enc (Api.ShowMessage.log msg task orid) = .obj (([("type", some (.int 4)),
      ("message", some (Json.str msg)),
      ("task", task.map TaskId.enc),
      ("originId", orid.map Json.str)] : List (String × Option Json)).filterMap fun m => m.2.map (m.1, ·)) := by
  simp only [ShowMessage.enc, Api.ShowMessage.log, Api.ShowMessage.new, fld_mem, skipNone_mem', skipIf_mem', mems_cons, mems_nil, List.append_nil, List.append_assoc]
  try simp [value_isNull, mem_none, encOpt, encList, MessageType.enc, MessageType.code, TaskStatus.enc, TaskStatus.code, TaskDataKind.isNone]
  try simp [Spec.mem]

theorem new_ShowMessage_warn [Ext] (msg : String) (task : Option TaskId) (orid : Option String) :
    ShowMessage.enc (Api.ShowMessage.warn msg task orid) = .obj (([("type", some (.int 2)),
      ("message", some (Json.str msg)),
      ("task", task.map TaskId.enc),
      ("originId", orid.map Json.str)] : List (String × Option Json)).filterMap fun m => m.2.map (m.1, ·)) := by
  simp only [ShowMessage.enc, Api.ShowMessage.warn, Api.ShowMessage.new, fld_mem, skipNone_mem', skipIf_mem', mems_cons, mems_nil, List.append_nil, List.append_assoc]
  try simp [value_isNull, mem_none, encOpt, encList, MessageType.enc, MessageType.code, TaskStatus.enc, TaskStatus.code, TaskDataKind.isNone]
  try simp [Spec.mem]

theorem new_ShowMessage_error [Ext] (msg : String) (task : Option TaskId) (orid : Option String) :
    ShowMessage.enc (Api.ShowMessage.error msg task orid) = .obj (([("type", some (.int 1)),
      ("message", some (Json.str msg)),
      ("task", task.map TaskId.enc),
      ("originId", orid.map Json.str)] : List (String × Option Json)).filterMap fun m => m.2.map (m.1, ·)) := by
  simp only [ShowMessage.enc, Api.ShowMessage.error, Api.ShowMessage.new, fld_mem, skipNone_mem', skipIf_mem', mems_cons, mems_nil, List.append_nil, List.append_assoc]
  try simp [value_isNull, mem_none, encOpt, encList, MessageType.enc, MessageType.code, TaskStatus.enc, TaskStatus.code, TaskDataKind.isNone]
  try simp [Spec.mem]

theorem new_TaskFinish_new [Ext] (task_id : TaskId) :
    TaskFinish.enc (Api.TaskFinish.new task_id) = .obj (([("taskId", some (TaskId.enc task_id)),
      ("eventTime", none),
      ("message", none),
      ("status", some (.int 1)),
      ("dataKind", none),
      ("data", none)] : List (String × Option Json)).filterMap fun m => m.2.map (m.1, ·)) := by
  simp only [TaskFinish.enc, Api.TaskFinish.new, fld_mem, skipNone_mem', skipIf_mem', mems_cons, mems_nil, List.append_nil, List.append_assoc]
  try simp [value_isNull, mem_none, encOpt, encList, MessageType.enc, MessageType.code, TaskStatus.enc, TaskStatus.code, TaskDataKind.isNone]
  try simp [Spec.mem]

theorem new_TaskId_from_string [Ext] (id : String) :
    TaskId.enc (Api.TaskId.from_string id) = .obj (([("id", some (Json.str id)),
      ("parents", none)] : List (String × Option Json)).filterMap fun m => m.2.map (m.1, ·)) := by
  simp only [TaskId.enc, Api.TaskId.from_string, fld_mem, skipNone_mem', skipIf_mem', mems_cons, mems_nil, List.append_nil, List.append_assoc]
  try simp [value_isNull, mem_none, encOpt, encList, MessageType.enc, MessageType.code, TaskStatus.enc, TaskStatus.code, TaskDataKind.isNone]
  try simp [Spec.mem]

theorem new_TaskId_from_str [Ext] (id : String) :
    TaskId.enc (Api.TaskId.from_str id) = .obj (([("id", some (Json.str id)),
      ("parents", none)] : List (String × Option Json)).filterMap fun m => m.2.map (m.1, ·)) := by
  simp only [TaskId.enc, Api.TaskId.from_str, fld_mem, skipNone_mem', skipIf_mem', mems_cons, mems_nil, List.append_nil, List.append_assoc]
  try simp [value_isNull, mem_none, encOpt, encList, MessageType.enc, MessageType.code, TaskStatus.enc, TaskStatus.code, TaskDataKind.isNone]
  try simp [Spec.mem]

theorem new_TaskId_new [Ext] (id : String) (parents : List String) :
    TaskId.enc (Api.TaskId.new id parents) = .obj (([("id", some (Json.str id)),
      ("parents", if parents = [] then none else some (encList Json.str parents))] : List (String × Option Json)).filterMap fun m => m.2.map (m.1, ·)) := by
  simp only [TaskId.enc, Api.TaskId.new, fld_mem, skipNone_mem', skipIf_mem', mems_cons, mems_nil, List.append_nil, List.append_assoc]
  try simp [value_isNull, mem_none, encOpt, encList, MessageType.enc, MessageType.code, TaskStatus.enc, TaskStatus.code, TaskDataKind.isNone]
  try simp [Spec.mem]

theorem new_TaskStart_new [Ext] (task_id : TaskId) :
    TaskStart.enc (Api.TaskStart.new task_id) = .obj (([("taskId", some (TaskId.enc task_id)),
      ("eventTime", none),
      ("message", none),
      ("dataKind", none),
      ("data", none)] : List (String × Option Json)).filterMap fun m => m.2.map (m.1, ·)) := by
  simp only [TaskStart.enc, Api.TaskStart.new, fld_mem, skipNone_mem', skipIf_mem', mems_cons, mems_nil, List.append_nil, List.append_assoc]
  try simp [value_isNull, mem_none, encOpt, encList, MessageType.enc, MessageType.code, TaskStatus.enc, TaskStatus.code, TaskDataKind.isNone]
  try simp [Spec.mem]

theorem new_BuildTarget_new [Ext] (id : BuildTargetIdentifier) (display_name : Option String) (base_directory : Option String) (tags : List BuildTargetTag) (capabilities : BuildTargetCapabilities) (language_ids : List String) (dependencies : List BuildTargetIdentifier) :
    BuildTarget.enc (Api.BuildTarget.new id display_name base_directory tags capabilities language_ids dependencies) = .obj (([("id", some (BuildTargetIdentifier.enc id)),
      ("displayName", display_name.map Json.str),
      ("baseDirectory", base_directory.map Json.str),
      ("tags", some (encList BuildTargetTag.enc tags)),
      ("capabilities", some (BuildTargetCapabilities.enc capabilities)),
      ("languageIds", some (encList Json.str language_ids)),
      ("dependencies", some (encList BuildTargetIdentifier.enc dependencies))] : List (String × Option Json)).filterMap fun m => m.2.map (m.1, ·)) := by
  simp only [BuildTarget.enc, Api.BuildTarget.new, fld_mem, skipNone_mem', skipIf_mem', mems_cons, mems_nil, List.append_nil, List.append_assoc]
  try simp [value_isNull, mem_none, encOpt, encList, MessageType.enc, MessageType.code, TaskStatus.enc, TaskStatus.code, TaskDataKind.isNone]
  try simp [Spec.mem]

theorem new_BuildTarget_new_simple [Ext] (id : BuildTargetIdentifier) (tags : List BuildTargetTag) (capabilities : BuildTargetCapabilities) (language_ids : List String) (dependencies : List BuildTargetIdentifier) :
    BuildTarget.enc (Api.BuildTarget.new_simple id tags capabilities language_ids dependencies) = .obj (([("id", some (BuildTargetIdentifier.enc id)),
      ("displayName", none),
      ("baseDirectory", none),
      ("tags", some (encList BuildTargetTag.enc tags)),
      ("capabilities", some (BuildTargetCapabilities.enc capabilities)),
      ("languageIds", some (encList Json.str language_ids)),
      ("dependencies", some (encList BuildTargetIdentifier.enc dependencies))] : List (String × Option Json)).filterMap fun m => m.2.map (m.1, ·)) := by
  simp only [BuildTarget.enc, Api.BuildTarget.new_simple, fld_mem, skipNone_mem', skipIf_mem', mems_cons, mems_nil, List.append_nil, List.append_assoc]
  try simp [value_isNull, mem_none, encOpt, encList, MessageType.enc, MessageType.code, TaskStatus.enc, TaskStatus.code, TaskDataKind.isNone]
  try simp [Spec.mem]

theorem new_WorkspaceBuildTargetsResult_new [Ext] (targets : List BuildTarget) :
    WorkspaceBuildTargetsResult.enc (Api.WorkspaceBuildTargetsResult.new targets) = .obj (([("targets", some (encList BuildTarget.enc targets))] : List (String × Option Json)).filterMap fun m => m.2.map (m.1, ·)) := by
  simp only [WorkspaceBuildTargetsResult.enc, Api.WorkspaceBuildTargetsResult.new, fld_mem, skipNone_mem', skipIf_mem', mems_cons, mems_nil, List.append_nil, List.append_assoc]
  try simp [value_isNull, mem_none, encOpt, encList, MessageType.enc, MessageType.code, TaskStatus.enc, TaskStatus.code, TaskDataKind.isNone]
  try simp [Spec.mem]

theorem new_WorkspaceBuildTargetsResult_from_buildTarget [Ext] (target : BuildTarget) :
    WorkspaceBuildTargetsResult.enc (Api.WorkspaceBuildTargetsResult.from_buildTarget target) = .obj (([("targets", some (.arr [BuildTarget.enc target]))] : List (String × Option Json)).filterMap fun m => m.2.map (m.1, ·)) := by
  simp only [WorkspaceBuildTargetsResult.enc, Api.WorkspaceBuildTargetsResult.from_buildTarget, fld_mem, skipNone_mem', skipIf_mem', mems_cons, mems_nil, List.append_nil, List.append_assoc]
  try simp [value_isNull, mem_none, encOpt, encList, MessageType.enc, MessageType.code, TaskStatus.enc, TaskStatus.code, TaskDataKind.isNone]
  try simp [Spec.mem]

/-- C67: every constructor makes the object with the members its parameters are named after, and every derived
`Default` the object with every member left out, null, false, 0 or empty. -/
theorem C67_constructors [Ext] : ∀ s ∈ Spec.ctors, s.Law := by
  simp only [Spec.ctors, List.forall_mem_cons, List.not_mem_nil, false_imp_iff, forall_const, implies_true, and_true]
  exact ⟨fun _ => new_default_ClientCapabilities,
    fun _ => new_default_DebugSessionStart,
    fun _ => new_default_ShowMessage,
    fun _ => new_default_LogMessage,
    fun _ => new_default_TaskId,
    fun _ => new_default_TaskStart,
    fun _ => new_default_TaskFinish,
    fun _ => new_default_TaskProgress,
    fun _ => new_default_BuildTargetDidChange,
    fun _ => new_default_CompileProvider,
    fun _ => new_default_TestProvider,
    fun _ => new_default_RunProvider,
    fun _ => new_default_DebugProvider,
    fun _ => new_default_ServerCapabilities,
    fun _ => new_default_InitializeBuildResult,
    fun _ => new_default_BuildTargetCapabilities,
    fun _ => new_default_WorkspaceBuildTargetsResult,
    fun _ => new_default_BuildTargetSourcesResult,
    fun _ => new_default_BuildTargetResourcesResult,
    fun _ => new_default_DependencyModule,
    fun _ => new_default_BuildTargetDependencyModulesResult,
    fun _ => new_default_BuildTargetInverseSourcesResult,
    fun _ => new_default_BuildTargetDependencySourcesResult,
    fun (can_compile, can_test, can_run, can_debug) => new_BuildTargetCapabilities_new can_compile can_test can_run can_debug,
    fun (message, cleaned) => new_BuildTargetCleanCacheResult_new message cleaned,
    fun cleaned => new_BuildTargetCleanCacheResult_new_simple cleaned,
    fun (target, origin_id, arguments) => new_BuildTargetCompile_new target origin_id arguments,
    fun target => new_BuildTargetCompile_new_simple target,
    fun (origin_id, status_code, data_kind, data) => new_BuildTargetCompileResult_new origin_id status_code data_kind data,
    fun status_code => new_BuildTargetCompileResult_new_simple status_code,
    fun items => new_BuildTargetDependencyModulesResult_new items,
    fun (target, modules) => new_DependencyModulesItem_new target modules,
    fun (name, version, data_kind, data) => new_DependencyModule_new name version data_kind data,
    fun (name, version) => new_DependencyModule_new_simple name version,
    fun text_document => new_BuildTargetDependencySources_new text_document,
    fun (target, kind, data) => new_BuildTargetEvent_new target kind data,
    fun target => new_BuildTargetEvent_new_simple target,
    fun uri => new_BuildTargetIdentifier_new uri,
    fun text_document => new_TextDocumentInverseSources_new text_document,
    fun targets => new_BuildTargetResources_new targets,
    fun items => new_BuildTargetResourcesResult_new items,
    fun (target, resources) => new_Resources_new target resources,
    fun (target, origin_id, arguments, data_kind, data) => new_BuildTargetRun_new target origin_id arguments data_kind data,
    fun target => new_BuildTargetRun_new_simple target,
    fun (origin_id, status_code) => new_BuildTargetRunResult_new origin_id status_code,
    fun targets => new_BuildTargetSources_new targets,
    fun items => new_BuildTargetSourcesResult_new items,
    fun (target, sources) => new_SourcesCollection_new target sources,
    fun (uri, kind, generated) => new_Sources_new uri kind generated,
    fun (target, origin_id, arguments, data_kind, data) => new_BuildTargetTest_new target origin_id arguments data_kind data,
    fun target => new_BuildTargetTest_new_simple target,
    fun (origin_id, status_code, data_kind, data) => new_BuildTargetTestResult_new origin_id status_code data_kind data,
    fun status_code => new_BuildTargetTestResult_new_simple status_code,
    fun language_ids => new_ClientCapabilities_new language_ids,
    fun (targets, data_kind, data) => new_DebugSessionStart_new targets data_kind data,
    fun uri => new_DebugSessionStartResult_new uri,
    fun (display_name, version, bsp_version, root_uri, capabilities, data) => new_InitializeBuild_new display_name version bsp_version root_uri capabilities data,
    fun (display_name, version, bsp_version, root_uri, capabilities) => new_InitializeBuild_new_simple display_name version bsp_version root_uri capabilities,
    fun (display_name, version, bsp_version, capabilities, data) => new_InitializeBuildResult_new display_name version bsp_version capabilities data,
    fun (display_name, version, bsp_version, capabilities) => new_InitializeBuildResult_new_simple display_name version bsp_version capabilities,
    fun (typ, msg, task, orid) => new_LogMessage_new typ msg task orid,
    fun (msg, task, orid) => new_LogMessage_info msg task orid,
    fun (msg, task, orid) => new_LogMessage_log msg task orid,
    fun (msg, task, orid) => new_LogMessage_warn msg task orid,
    fun (msg, task, orid) => new_LogMessage_error msg task orid,
    fun (typ, msg, task, orid) => new_ShowMessage_new typ msg task orid,
    fun (msg, task, orid) => new_ShowMessage_info msg task orid,
    fun (msg, task, orid) => new_ShowMessage_log msg task orid,
    fun (msg, task, orid) => new_ShowMessage_warn msg task orid,
    fun (msg, task, orid) => new_ShowMessage_error msg task orid,
    fun task_id => new_TaskFinish_new task_id,
    fun id => new_TaskId_from_string id,
    fun id => new_TaskId_from_str id,
    fun (id, parents) => new_TaskId_new id parents,
    fun task_id => new_TaskStart_new task_id,
    fun (id, display_name, base_directory, tags, capabilities, language_ids, dependencies) => new_BuildTarget_new id display_name base_directory tags capabilities language_ids dependencies,
    fun (id, tags, capabilities, language_ids, dependencies) => new_BuildTarget_new_simple id tags capabilities language_ids dependencies,
    fun targets => new_WorkspaceBuildTargetsResult_new targets,
    fun target => new_WorkspaceBuildTargetsResult_from_buildTarget target⟩

/-! The remaining functions. -/

/-- C66: `is_empty` tells whether the `targets` written are empty. -/
theorem C66_is_empty [Ext] :
    (∀ x, Api.BuildTargetCleanCache.is_empty x = true ↔ member "targets" x.enc = some (.arr [])) ∧
    (∀ x, Api.BuildTargetDependencyModules.is_empty x = true ↔ member "targets" x.enc = some (.arr [])) := by
  refine ⟨fun x => ?_, fun x => ?_⟩
  · simp [Api.BuildTargetCleanCache.is_empty, BuildTargetCleanCache.enc, member_fld, encList]
  · simp [Api.BuildTargetDependencyModules.is_empty, BuildTargetDependencyModules.enc, member_fld, encList]

/-- C66: the predicates on a task status are about the code that is written. -/
theorem C66_status (x : TaskStatus) :
    (Api.TaskStatus.is_ok x = true ↔ x.enc = .int 1) ∧
    (Api.TaskStatus.is_error x = true ↔ x.enc = .int 2) ∧
    (Api.TaskStatus.is_cancelled x = true ↔ x.enc = .int 3) := by
  cases x <;> decide

/-- C65: adding a parent appends it to the `parents` written, and changes nothing else. -/
theorem C65_add_parent (x : TaskId) (v : String) (k : String) :
    member k (Api.TaskId.add_parent x v).enc =
      if k = "parents" then
        some (.arr ((match member "parents" x.enc with
          | some (.arr l) => l
          | _ => []) ++ [.str v]))
      else member k x.enc := by
  obtain ⟨id, ps⟩ := x
  by_cases h : k = "parents"
  · subst h
    cases ps <;> simp [Api.TaskId.add_parent, TaskId.enc, member_obj_append, member_fld, member_skipIf, encList]
  · simp [Api.TaskId.add_parent, TaskId.enc, member_obj_append, member_fld, member_skipIf, h]

section
attribute [local instance] Ext.sample
/-- Beside C65: the setter for the origin of a run request on an object with other members. -/
example (u : Ext.Url) : let x : BuildTargetRun := ⟨⟨u⟩, none, some "a", none, some Value.null⟩
    member "originId" (Api.BuildTargetRun.set_origin_id x (some "o")).enc = some (.str "o") ∧
    member "arguments" (Api.BuildTargetRun.set_origin_id x (some "o")).enc = some (.str "a") ∧
    member "originId" (Api.BuildTargetRun.set_origin_id x none).enc = none := by
  refine ⟨?_, ?_, ?_⟩ <;> rw [set_BuildTargetRun_set_origin_id] <;> rfl
/-- Beside C65: a second parent. -/
example : member "parents" (Api.TaskId.add_parent ⟨"t", ["a"]⟩ "b").enc = some (.arr [.str "a", .str "b"]) := rfl
/-- Beside C66: a getter on an object with and without the member. -/
example (u : Ext.Url) : member "data" (BuildTargetRun.enc ⟨⟨u⟩, none, none, none, some Value.null⟩) = some .null ∧
    Api.BuildTargetRun.data ⟨⟨u⟩, none, none, none, some Value.null⟩ = some Value.null := ⟨rfl, rfl⟩
/-- Beside C67: `InitializeBuild::new` with null data writes the null, `new_simple` does not. -/
example (u : Ext.Url) :
    (Api.InitializeBuild.new "n" "" "2" u ⟨[]⟩ Value.null).enc = .obj [("displayName", .str "n"),
      ("bspVersion", .str "2"), ("rootUri", encUrl u), ("capabilities", .obj [("languageIds", .arr [])]), ("data", .null)] ∧
    (Api.InitializeBuild.new_simple "n" "" "2" u ⟨[]⟩).enc = .obj [("displayName", .str "n"),
      ("bspVersion", .str "2"), ("rootUri", encUrl u), ("capabilities", .obj [("languageIds", .arr [])])] :=
  ⟨rfl, rfl⟩
end

/-! ### C68 -/

/-- The severity and the tags of the diagnostic are those with a name (the fields of `DiagnosticSeverity` and
`DiagnosticTag` are private, there are only their associated constants).
Specification about lsp_types::Diagnostic (bsp-types/src/publish_diagnostics.rs:1, 22). -/
def Spec.Named [Ext] (x : Diagnostic) : Prop :=
  (∀ s ∈ x.severity, s ∈ ([1, 2, 3, 4] : List Int32)) ∧ ∀ l ∈ x.tags, ∀ t ∈ l, t ∈ ([1, 2] : List Int32)

/-- The payload values a user of the crate can build without decoding one: struct literals for types whose fields
are public, the constructors and derived defaults, the setters; applied to parts that can be built.
bsp-types/src/*.rs (visibility of the fields, `impl` blocks). -/
inductive Api.Built [Ext] : (p : Payload) → p.Carrier → Prop where
  | BuildTargetIdentifier_new (uri : Ext.Url) : Built .buildTargetIdentifier (Api.BuildTargetIdentifier.new uri)
  | BuildTargetIdentifier_set_uri (x : BuildTargetIdentifier) (v) : Built .buildTargetIdentifier x → Built .buildTargetIdentifier (Api.BuildTargetIdentifier.set_uri x v)
  | TextDocumentIdentifier_literal (x : TextDocumentIdentifier) : Built .textDocumentIdentifier x
  | default_ClientCapabilities : Built .clientCapabilities (Api.default_ClientCapabilities)
  | ClientCapabilities_new (language_ids : List String) : Built .clientCapabilities (Api.ClientCapabilities.new language_ids)
  | ClientCapabilities_set_language_ids (x : ClientCapabilities) (v) : Built .clientCapabilities x → Built .clientCapabilities (Api.ClientCapabilities.set_language_ids x v)
  | ClientCapabilities_language_ids_mut (x : ClientCapabilities) (v) : Built .clientCapabilities x → Built .clientCapabilities (Api.ClientCapabilities.language_ids_mut x v)
  | InitializeBuild_new (display_name : String) (version : String) (bsp_version : String) (root_uri : Ext.Url) (capabilities : ClientCapabilities) (data : Value) : Built .clientCapabilities capabilities → Built .initializeBuild (Api.InitializeBuild.new display_name version bsp_version root_uri capabilities data)
  | InitializeBuild_new_simple (display_name : String) (version : String) (bsp_version : String) (root_uri : Ext.Url) (capabilities : ClientCapabilities) : Built .clientCapabilities capabilities → Built .initializeBuild (Api.InitializeBuild.new_simple display_name version bsp_version root_uri capabilities)
  | InitializeBuild_set_data (x : InitializeBuild) (v) : Built .initializeBuild x → Built .initializeBuild (Api.InitializeBuild.set_data x v)
  | InitializeBuild_set_capabilities (x : InitializeBuild) (v) : Built .initializeBuild x → Built .clientCapabilities v → Built .initializeBuild (Api.InitializeBuild.set_capabilities x v)
  | InitializeBuild_set_root_uri (x : InitializeBuild) (v) : Built .initializeBuild x → Built .initializeBuild (Api.InitializeBuild.set_root_uri x v)
  | InitializeBuild_set_bsp_version (x : InitializeBuild) (v) : Built .initializeBuild x → Built .initializeBuild (Api.InitializeBuild.set_bsp_version x v)
  | InitializeBuild_set_version (x : InitializeBuild) (v) : Built .initializeBuild x → Built .initializeBuild (Api.InitializeBuild.set_version x v)
  | InitializeBuild_set_display_name (x : InitializeBuild) (v) : Built .initializeBuild x → Built .initializeBuild (Api.InitializeBuild.set_display_name x v)
  | BuildTargetCleanCache_targets_mut (x : BuildTargetCleanCache) (v) : Built .buildTargetCleanCache x → (∀ y ∈ v, Built .buildTargetIdentifier y) → Built .buildTargetCleanCache (Api.BuildTargetCleanCache.targets_mut x v)
  | BuildTargetCleanCache_set_targets (x : BuildTargetCleanCache) (v) : Built .buildTargetCleanCache x → (∀ y ∈ v, Built .buildTargetIdentifier y) → Built .buildTargetCleanCache (Api.BuildTargetCleanCache.set_targets x v)
  | BuildTargetDependencyModules_targets_mut (x : BuildTargetDependencyModules) (v) : Built .buildTargetDependencyModules x → (∀ y ∈ v, Built .buildTargetIdentifier y) → Built .buildTargetDependencyModules (Api.BuildTargetDependencyModules.targets_mut x v)
  | BuildTargetDependencyModules_set_targets (x : BuildTargetDependencyModules) (v) : Built .buildTargetDependencyModules x → (∀ y ∈ v, Built .buildTargetIdentifier y) → Built .buildTargetDependencyModules (Api.BuildTargetDependencyModules.set_targets x v)
  | BuildTargetResources_new (targets : List BuildTargetIdentifier) : (∀ y ∈ targets, Built .buildTargetIdentifier y) → Built .buildTargetResources (Api.BuildTargetResources.new targets)
  | BuildTargetResources_set_targets (x : BuildTargetResources) (v) : Built .buildTargetResources x → (∀ y ∈ v, Built .buildTargetIdentifier y) → Built .buildTargetResources (Api.BuildTargetResources.set_targets x v)
  | BuildTargetResources_targets_mut (x : BuildTargetResources) (v) : Built .buildTargetResources x → (∀ y ∈ v, Built .buildTargetIdentifier y) → Built .buildTargetResources (Api.BuildTargetResources.targets_mut x v)
  | BuildTargetSources_new (targets : List BuildTargetIdentifier) : (∀ y ∈ targets, Built .buildTargetIdentifier y) → Built .buildTargetSources (Api.BuildTargetSources.new targets)
  | BuildTargetSources_set_targets (x : BuildTargetSources) (v) : Built .buildTargetSources x → (∀ y ∈ v, Built .buildTargetIdentifier y) → Built .buildTargetSources (Api.BuildTargetSources.set_targets x v)
  | BuildTargetCompile_new (target : BuildTargetIdentifier) (origin_id : Option String) (arguments : Option String) : Built .buildTargetIdentifier target → Built .buildTargetCompile (Api.BuildTargetCompile.new target origin_id arguments)
  | BuildTargetCompile_new_simple (target : BuildTargetIdentifier) : Built .buildTargetIdentifier target → Built .buildTargetCompile (Api.BuildTargetCompile.new_simple target)
  | BuildTargetCompile_set_target (x : BuildTargetCompile) (v) : Built .buildTargetCompile x → Built .buildTargetIdentifier v → Built .buildTargetCompile (Api.BuildTargetCompile.set_target x v)
  | BuildTargetCompile_set_origin_id (x : BuildTargetCompile) (v) : Built .buildTargetCompile x → Built .buildTargetCompile (Api.BuildTargetCompile.set_origin_id x v)
  | BuildTargetCompile_set_arguments (x : BuildTargetCompile) (v) : Built .buildTargetCompile x → Built .buildTargetCompile (Api.BuildTargetCompile.set_arguments x v)
  | BuildTargetRun_new (target : BuildTargetIdentifier) (origin_id : Option String) (arguments : Option String) (data_kind : Option String) (data : Option Value) : Built .buildTargetIdentifier target → Built .buildTargetRun (Api.BuildTargetRun.new target origin_id arguments data_kind data)
  | BuildTargetRun_new_simple (target : BuildTargetIdentifier) : Built .buildTargetIdentifier target → Built .buildTargetRun (Api.BuildTargetRun.new_simple target)
  | BuildTargetRun_set_target (x : BuildTargetRun) (v) : Built .buildTargetRun x → Built .buildTargetIdentifier v → Built .buildTargetRun (Api.BuildTargetRun.set_target x v)
  | BuildTargetRun_set_origin_id (x : BuildTargetRun) (v) : Built .buildTargetRun x → Built .buildTargetRun (Api.BuildTargetRun.set_origin_id x v)
  | BuildTargetRun_set_arguments (x : BuildTargetRun) (v) : Built .buildTargetRun x → Built .buildTargetRun (Api.BuildTargetRun.set_arguments x v)
  | BuildTargetRun_set_data_kind (x : BuildTargetRun) (v) : Built .buildTargetRun x → Built .buildTargetRun (Api.BuildTargetRun.set_data_kind x v)
  | BuildTargetRun_set_data (x : BuildTargetRun) (v) : Built .buildTargetRun x → Built .buildTargetRun (Api.BuildTargetRun.set_data x v)
  | BuildTargetTest_new (target : BuildTargetIdentifier) (origin_id : Option String) (arguments : Option String) (data_kind : Option String) (data : Option Value) : Built .buildTargetIdentifier target → Built .buildTargetTest (Api.BuildTargetTest.new target origin_id arguments data_kind data)
  | BuildTargetTest_new_simple (target : BuildTargetIdentifier) : Built .buildTargetIdentifier target → Built .buildTargetTest (Api.BuildTargetTest.new_simple target)
  | BuildTargetTest_set_target (x : BuildTargetTest) (v) : Built .buildTargetTest x → Built .buildTargetIdentifier v → Built .buildTargetTest (Api.BuildTargetTest.set_target x v)
  | BuildTargetTest_set_origin_id (x : BuildTargetTest) (v) : Built .buildTargetTest x → Built .buildTargetTest (Api.BuildTargetTest.set_origin_id x v)
  | BuildTargetTest_set_arguments (x : BuildTargetTest) (v) : Built .buildTargetTest x → Built .buildTargetTest (Api.BuildTargetTest.set_arguments x v)
  | BuildTargetTest_set_data_kind (x : BuildTargetTest) (v) : Built .buildTargetTest x → Built .buildTargetTest (Api.BuildTargetTest.set_data_kind x v)
  | BuildTargetTest_set_data (x : BuildTargetTest) (v) : Built .buildTargetTest x → Built .buildTargetTest (Api.BuildTargetTest.set_data x v)
  | BuildTargetDependencySources_new (text_document : TextDocumentIdentifier) : Built .textDocumentIdentifier text_document → Built .buildTargetDependencySources (Api.BuildTargetDependencySources.new text_document)
  | BuildTargetDependencySources_set_text_document (x : BuildTargetDependencySources) (v) : Built .buildTargetDependencySources x → Built .textDocumentIdentifier v → Built .buildTargetDependencySources (Api.BuildTargetDependencySources.set_text_document x v)
  | TextDocumentInverseSources_new (text_document : TextDocumentIdentifier) : Built .textDocumentIdentifier text_document → Built .textDocumentInverseSources (Api.TextDocumentInverseSources.new text_document)
  | TextDocumentInverseSources_set_text_document (x : TextDocumentInverseSources) (v) : Built .textDocumentInverseSources x → Built .textDocumentIdentifier v → Built .textDocumentInverseSources (Api.TextDocumentInverseSources.set_text_document x v)
  | default_DebugSessionStart : Built .debugSessionStart (Api.default_DebugSessionStart)
  | DebugSessionStart_new (targets : List BuildTargetIdentifier) (data_kind : String) (data : Value) : (∀ y ∈ targets, Built .buildTargetIdentifier y) → Built .debugSessionStart (Api.DebugSessionStart.new targets data_kind data)
  | DebugSessionStart_set_targets (x : DebugSessionStart) (v) : Built .debugSessionStart x → (∀ y ∈ v, Built .buildTargetIdentifier y) → Built .debugSessionStart (Api.DebugSessionStart.set_targets x v)
  | DebugSessionStart_set_data_kind (x : DebugSessionStart) (v) : Built .debugSessionStart x → Built .debugSessionStart (Api.DebugSessionStart.set_data_kind x v)
  | DebugSessionStart_set_data (x : DebugSessionStart) (v) : Built .debugSessionStart x → Built .debugSessionStart (Api.DebugSessionStart.set_data x v)
  | default_TaskId : Built .taskId (Api.default_TaskId)
  | TaskId_from_string (id : String) : Built .taskId (Api.TaskId.from_string id)
  | TaskId_from_str (id : String) : Built .taskId (Api.TaskId.from_str id)
  | TaskId_new (id : String) (parents : List String) : Built .taskId (Api.TaskId.new id parents)
  | ShowMessage_literal (x : ShowMessage) : (∀ y ∈ x.task, Built .taskId y) → Built .showMessage x
  | default_ShowMessage : Built .showMessage (Api.default_ShowMessage)
  | ShowMessage_new (typ : MessageType) (msg : String) (task : Option TaskId) (orid : Option String) : (∀ y ∈ task, Built .taskId y) → Built .showMessage (Api.ShowMessage.new typ msg task orid)
  | ShowMessage_info (msg : String) (task : Option TaskId) (orid : Option String) : (∀ y ∈ task, Built .taskId y) → Built .showMessage (Api.ShowMessage.info msg task orid)
  | ShowMessage_log (msg : String) (task : Option TaskId) (orid : Option String) : (∀ y ∈ task, Built .taskId y) → Built .showMessage (Api.ShowMessage.log msg task orid)
  | ShowMessage_warn (msg : String) (task : Option TaskId) (orid : Option String) : (∀ y ∈ task, Built .taskId y) → Built .showMessage (Api.ShowMessage.warn msg task orid)
  | ShowMessage_error (msg : String) (task : Option TaskId) (orid : Option String) : (∀ y ∈ task, Built .taskId y) → Built .showMessage (Api.ShowMessage.error msg task orid)
  | LogMessage_literal (x : LogMessage) : (∀ y ∈ x.task, Built .taskId y) → Built .logMessage x
  | default_LogMessage : Built .logMessage (Api.default_LogMessage)
  | LogMessage_new (typ : MessageType) (msg : String) (task : Option TaskId) (orid : Option String) : (∀ y ∈ task, Built .taskId y) → Built .logMessage (Api.LogMessage.new typ msg task orid)
  | LogMessage_info (msg : String) (task : Option TaskId) (orid : Option String) : (∀ y ∈ task, Built .taskId y) → Built .logMessage (Api.LogMessage.info msg task orid)
  | LogMessage_log (msg : String) (task : Option TaskId) (orid : Option String) : (∀ y ∈ task, Built .taskId y) → Built .logMessage (Api.LogMessage.log msg task orid)
  | LogMessage_warn (msg : String) (task : Option TaskId) (orid : Option String) : (∀ y ∈ task, Built .taskId y) → Built .logMessage (Api.LogMessage.warn msg task orid)
  | LogMessage_error (msg : String) (task : Option TaskId) (orid : Option String) : (∀ y ∈ task, Built .taskId y) → Built .logMessage (Api.LogMessage.error msg task orid)
  | Position_literal (x : Position) : Built .position x
  | Range_literal (x : Range) : Built .position x.start → Built .position x.end_ → Built .range x
  | CodeDescription_literal (x : CodeDescription) : Built .codeDescription x
  | Location_literal (x : Location) : Built .range x.range → Built .location x
  | DiagnosticRelatedInformation_literal (x : DiagnosticRelatedInformation) : Built .location x.location → Built .diagnosticRelatedInformation x
  | Diagnostic_literal (x : Diagnostic) : Spec.Named x → Built .range x.range → (∀ y ∈ x.codeDescription, Built .codeDescription y) → (∀ l ∈ x.relatedInformation, ∀ y ∈ l, Built .diagnosticRelatedInformation y) → Built .diagnostic x
  | TaskStart_literal (x : TaskStart) : Built .taskId x.taskId → Built .taskStart x
  | default_TaskStart : Built .taskStart (Api.default_TaskStart)
  | TaskStart_new (task_id : TaskId) : Built .taskId task_id → Built .taskStart (Api.TaskStart.new task_id)
  | TaskFinish_literal (x : TaskFinish) : Built .taskId x.taskId → Built .taskFinish x
  | default_TaskFinish : Built .taskFinish (Api.default_TaskFinish)
  | TaskFinish_new (task_id : TaskId) : Built .taskId task_id → Built .taskFinish (Api.TaskFinish.new task_id)
  | TaskProgress_literal (x : TaskProgress) : Built .taskId x.taskId → Built .taskProgress x
  | default_TaskProgress : Built .taskProgress (Api.default_TaskProgress)
  | BuildTargetEvent_literal (x : BuildTargetEvent) : Built .buildTargetIdentifier x.target → Built .buildTargetEvent x
  | BuildTargetEvent_new (target : BuildTargetIdentifier) (kind : Option BuildTargetEventKind) (data : Option Value) : Built .buildTargetIdentifier target → Built .buildTargetEvent (Api.BuildTargetEvent.new target kind data)
  | BuildTargetEvent_new_simple (target : BuildTargetIdentifier) : Built .buildTargetIdentifier target → Built .buildTargetEvent (Api.BuildTargetEvent.new_simple target)
  | BuildTargetDidChange_literal (x : BuildTargetDidChange) : (∀ y ∈ x.changes, Built .buildTargetEvent y) → Built .buildTargetDidChange x
  | default_BuildTargetDidChange : Built .buildTargetDidChange (Api.default_BuildTargetDidChange)
  | CompileProvider_literal (x : CompileProvider) : Built .compileProvider x
  | default_CompileProvider : Built .compileProvider (Api.default_CompileProvider)
  | TestProvider_literal (x : TestProvider) : Built .testProvider x
  | default_TestProvider : Built .testProvider (Api.default_TestProvider)
  | RunProvider_literal (x : RunProvider) : Built .runProvider x
  | default_RunProvider : Built .runProvider (Api.default_RunProvider)
  | DebugProvider_literal (x : DebugProvider) : Built .debugProvider x
  | default_DebugProvider : Built .debugProvider (Api.default_DebugProvider)
  | default_ServerCapabilities : Built .serverCapabilities (Api.default_ServerCapabilities)
  | ServerCapabilities_set_compile_provider (x : ServerCapabilities) (v) : Built .serverCapabilities x → (∀ y ∈ v, Built .compileProvider y) → Built .serverCapabilities (Api.ServerCapabilities.set_compile_provider x v)
  | ServerCapabilities_set_test_provider (x : ServerCapabilities) (v) : Built .serverCapabilities x → (∀ y ∈ v, Built .testProvider y) → Built .serverCapabilities (Api.ServerCapabilities.set_test_provider x v)
  | ServerCapabilities_set_run_provider (x : ServerCapabilities) (v) : Built .serverCapabilities x → (∀ y ∈ v, Built .runProvider y) → Built .serverCapabilities (Api.ServerCapabilities.set_run_provider x v)
  | ServerCapabilities_set_debug_provider (x : ServerCapabilities) (v) : Built .serverCapabilities x → (∀ y ∈ v, Built .debugProvider y) → Built .serverCapabilities (Api.ServerCapabilities.set_debug_provider x v)
  | ServerCapabilities_set_inverse_sources_provider (x : ServerCapabilities) (v) : Built .serverCapabilities x → Built .serverCapabilities (Api.ServerCapabilities.set_inverse_sources_provider x v)
  | ServerCapabilities_set_dependency_sources_provider (x : ServerCapabilities) (v) : Built .serverCapabilities x → Built .serverCapabilities (Api.ServerCapabilities.set_dependency_sources_provider x v)
  | ServerCapabilities_set_dependency_modules_provider (x : ServerCapabilities) (v) : Built .serverCapabilities x → Built .serverCapabilities (Api.ServerCapabilities.set_dependency_modules_provider x v)
  | ServerCapabilities_set_resources_provider (x : ServerCapabilities) (v) : Built .serverCapabilities x → Built .serverCapabilities (Api.ServerCapabilities.set_resources_provider x v)
  | ServerCapabilities_set_can_reload (x : ServerCapabilities) (v) : Built .serverCapabilities x → Built .serverCapabilities (Api.ServerCapabilities.set_can_reload x v)
  | ServerCapabilities_set_build_target_changed_provider (x : ServerCapabilities) (v) : Built .serverCapabilities x → Built .serverCapabilities (Api.ServerCapabilities.set_build_target_changed_provider x v)
  | default_InitializeBuildResult : Built .initializeBuildResult (Api.default_InitializeBuildResult)
  | InitializeBuildResult_new (display_name : String) (version : String) (bsp_version : String) (capabilities : ServerCapabilities) (data : Value) : Built .serverCapabilities capabilities → Built .initializeBuildResult (Api.InitializeBuildResult.new display_name version bsp_version capabilities data)
  | InitializeBuildResult_new_simple (display_name : String) (version : String) (bsp_version : String) (capabilities : ServerCapabilities) : Built .serverCapabilities capabilities → Built .initializeBuildResult (Api.InitializeBuildResult.new_simple display_name version bsp_version capabilities)
  | InitializeBuildResult_set_bsp_version (x : InitializeBuildResult) (v) : Built .initializeBuildResult x → Built .initializeBuildResult (Api.InitializeBuildResult.set_bsp_version x v)
  | InitializeBuildResult_set_version (x : InitializeBuildResult) (v) : Built .initializeBuildResult x → Built .initializeBuildResult (Api.InitializeBuildResult.set_version x v)
  | InitializeBuildResult_set_display_name (x : InitializeBuildResult) (v) : Built .initializeBuildResult x → Built .initializeBuildResult (Api.InitializeBuildResult.set_display_name x v)
  | InitializeBuildResult_set_capabilities (x : InitializeBuildResult) (v) : Built .initializeBuildResult x → Built .serverCapabilities v → Built .initializeBuildResult (Api.InitializeBuildResult.set_capabilities x v)
  | InitializeBuildResult_set_data (x : InitializeBuildResult) (v) : Built .initializeBuildResult x → Built .initializeBuildResult (Api.InitializeBuildResult.set_data x v)
  | InitializeBuildResult_data_mut (x : InitializeBuildResult) (v) : Built .initializeBuildResult x → Built .initializeBuildResult (Api.InitializeBuildResult.data_mut x v)
  | default_BuildTargetCapabilities : Built .buildTargetCapabilities (Api.default_BuildTargetCapabilities)
  | BuildTargetCapabilities_new (can_compile : Bool) (can_test : Bool) (can_run : Bool) (can_debug : Bool) : Built .buildTargetCapabilities (Api.BuildTargetCapabilities.new can_compile can_test can_run can_debug)
  | BuildTargetCapabilities_set_can_compile (x : BuildTargetCapabilities) (v) : Built .buildTargetCapabilities x → Built .buildTargetCapabilities (Api.BuildTargetCapabilities.set_can_compile x v)
  | BuildTargetCapabilities_set_can_test (x : BuildTargetCapabilities) (v) : Built .buildTargetCapabilities x → Built .buildTargetCapabilities (Api.BuildTargetCapabilities.set_can_test x v)
  | BuildTargetCapabilities_set_can_run (x : BuildTargetCapabilities) (v) : Built .buildTargetCapabilities x → Built .buildTargetCapabilities (Api.BuildTargetCapabilities.set_can_run x v)
  | BuildTargetCapabilities_set_can_debug (x : BuildTargetCapabilities) (v) : Built .buildTargetCapabilities x → Built .buildTargetCapabilities (Api.BuildTargetCapabilities.set_can_debug x v)
  | BuildTarget_literal (x : BuildTarget) : Built .buildTargetIdentifier x.id → Built .buildTargetCapabilities x.capabilities → (∀ y ∈ x.dependencies, Built .buildTargetIdentifier y) → Built .buildTarget x
  | BuildTarget_new (id : BuildTargetIdentifier) (display_name : Option String) (base_directory : Option String) (tags : List BuildTargetTag) (capabilities : BuildTargetCapabilities) (language_ids : List String) (dependencies : List BuildTargetIdentifier) : Built .buildTargetIdentifier id → Built .buildTargetCapabilities capabilities → (∀ y ∈ dependencies, Built .buildTargetIdentifier y) → Built .buildTarget (Api.BuildTarget.new id display_name base_directory tags capabilities language_ids dependencies)
  | BuildTarget_new_simple (id : BuildTargetIdentifier) (tags : List BuildTargetTag) (capabilities : BuildTargetCapabilities) (language_ids : List String) (dependencies : List BuildTargetIdentifier) : Built .buildTargetIdentifier id → Built .buildTargetCapabilities capabilities → (∀ y ∈ dependencies, Built .buildTargetIdentifier y) → Built .buildTarget (Api.BuildTarget.new_simple id tags capabilities language_ids dependencies)
  | WorkspaceBuildTargetsResult_literal (x : WorkspaceBuildTargetsResult) : (∀ y ∈ x.targets, Built .buildTarget y) → Built .workspaceBuildTargetsResult x
  | default_WorkspaceBuildTargetsResult : Built .workspaceBuildTargetsResult (Api.default_WorkspaceBuildTargetsResult)
  | WorkspaceBuildTargetsResult_new (targets : List BuildTarget) : (∀ y ∈ targets, Built .buildTarget y) → Built .workspaceBuildTargetsResult (Api.WorkspaceBuildTargetsResult.new targets)
  | WorkspaceBuildTargetsResult_from_buildTarget (target : BuildTarget) : Built .buildTarget target → Built .workspaceBuildTargetsResult (Api.WorkspaceBuildTargetsResult.from_buildTarget target)
  | DebugSessionStartResult_new (uri : Ext.Url) : Built .debugSessionStartResult (Api.DebugSessionStartResult.new uri)
  | Sources_new (uri : Ext.Url) (kind : SourceKind) (generated : Bool) : Built .sources (Api.Sources.new uri kind generated)
  | Sources_set_kind (x : Sources) (v) : Built .sources x → Built .sources (Api.Sources.set_kind x v)
  | Sources_set_uri (x : Sources) (v) : Built .sources x → Built .sources (Api.Sources.set_uri x v)
  | Sources_set_generated (x : Sources) (v) : Built .sources x → Built .sources (Api.Sources.set_generated x v)
  | SourcesCollection_new (target : BuildTargetIdentifier) (sources : List Sources) : Built .buildTargetIdentifier target → (∀ y ∈ sources, Built .sources y) → Built .sourcesCollection (Api.SourcesCollection.new target sources)
  | SourcesCollection_set_target (x : SourcesCollection) (v) : Built .sourcesCollection x → Built .buildTargetIdentifier v → Built .sourcesCollection (Api.SourcesCollection.set_target x v)
  | SourcesCollection_set_sources (x : SourcesCollection) (v) : Built .sourcesCollection x → (∀ y ∈ v, Built .sources y) → Built .sourcesCollection (Api.SourcesCollection.set_sources x v)
  | default_BuildTargetSourcesResult : Built .buildTargetSourcesResult (Api.default_BuildTargetSourcesResult)
  | BuildTargetSourcesResult_new (items : List SourcesCollection) : (∀ y ∈ items, Built .sourcesCollection y) → Built .buildTargetSourcesResult (Api.BuildTargetSourcesResult.new items)
  | BuildTargetSourcesResult_set_items (x : BuildTargetSourcesResult) (v) : Built .buildTargetSourcesResult x → (∀ y ∈ v, Built .sourcesCollection y) → Built .buildTargetSourcesResult (Api.BuildTargetSourcesResult.set_items x v)
  | BuildTargetCompileResult_new (origin_id : Option String) (status_code : UInt64) (data_kind : Option String) (data : Option Value) : Built .buildTargetCompileResult (Api.BuildTargetCompileResult.new origin_id status_code data_kind data)
  | BuildTargetCompileResult_new_simple (status_code : UInt64) : Built .buildTargetCompileResult (Api.BuildTargetCompileResult.new_simple status_code)
  | BuildTargetCompileResult_set_origin_id (x : BuildTargetCompileResult) (v) : Built .buildTargetCompileResult x → Built .buildTargetCompileResult (Api.BuildTargetCompileResult.set_origin_id x v)
  | BuildTargetCompileResult_set_status_code (x : BuildTargetCompileResult) (v) : Built .buildTargetCompileResult x → Built .buildTargetCompileResult (Api.BuildTargetCompileResult.set_status_code x v)
  | BuildTargetCompileResult_set_data_kind (x : BuildTargetCompileResult) (v) : Built .buildTargetCompileResult x → Built .buildTargetCompileResult (Api.BuildTargetCompileResult.set_data_kind x v)
  | BuildTargetCompileResult_set_data (x : BuildTargetCompileResult) (v) : Built .buildTargetCompileResult x → Built .buildTargetCompileResult (Api.BuildTargetCompileResult.set_data x v)
  | BuildTargetTestResult_new (origin_id : Option String) (status_code : UInt64) (data_kind : Option String) (data : Option Value) : Built .buildTargetTestResult (Api.BuildTargetTestResult.new origin_id status_code data_kind data)
  | BuildTargetTestResult_new_simple (status_code : UInt64) : Built .buildTargetTestResult (Api.BuildTargetTestResult.new_simple status_code)
  | BuildTargetTestResult_set_origin_id (x : BuildTargetTestResult) (v) : Built .buildTargetTestResult x → Built .buildTargetTestResult (Api.BuildTargetTestResult.set_origin_id x v)
  | BuildTargetTestResult_set_status_code (x : BuildTargetTestResult) (v) : Built .buildTargetTestResult x → Built .buildTargetTestResult (Api.BuildTargetTestResult.set_status_code x v)
  | BuildTargetTestResult_set_data_kind (x : BuildTargetTestResult) (v) : Built .buildTargetTestResult x → Built .buildTargetTestResult (Api.BuildTargetTestResult.set_data_kind x v)
  | BuildTargetTestResult_set_data (x : BuildTargetTestResult) (v) : Built .buildTargetTestResult x → Built .buildTargetTestResult (Api.BuildTargetTestResult.set_data x v)
  | BuildTargetRunResult_new (origin_id : Option String) (status_code : UInt64) : Built .buildTargetRunResult (Api.BuildTargetRunResult.new origin_id status_code)
  | BuildTargetRunResult_set_origin_id (x : BuildTargetRunResult) (v) : Built .buildTargetRunResult x → Built .buildTargetRunResult (Api.BuildTargetRunResult.set_origin_id x v)
  | BuildTargetRunResult_set_status_code (x : BuildTargetRunResult) (v) : Built .buildTargetRunResult x → Built .buildTargetRunResult (Api.BuildTargetRunResult.set_status_code x v)
  | Resources_new (target : BuildTargetIdentifier) (resources : List String) : Built .buildTargetIdentifier target → Built .resources (Api.Resources.new target resources)
  | Resources_set_target (x : Resources) (v) : Built .resources x → Built .buildTargetIdentifier v → Built .resources (Api.Resources.set_target x v)
  | Resources_set_resources (x : Resources) (v) : Built .resources x → Built .resources (Api.Resources.set_resources x v)
  | default_BuildTargetResourcesResult : Built .buildTargetResourcesResult (Api.default_BuildTargetResourcesResult)
  | BuildTargetResourcesResult_new (items : List Resources) : (∀ y ∈ items, Built .resources y) → Built .buildTargetResourcesResult (Api.BuildTargetResourcesResult.new items)
  | BuildTargetResourcesResult_items_mut (x : BuildTargetResourcesResult) (v) : Built .buildTargetResourcesResult x → (∀ y ∈ v, Built .resources y) → Built .buildTargetResourcesResult (Api.BuildTargetResourcesResult.items_mut x v)
  | default_DependencyModule : Built .dependencyModule (Api.default_DependencyModule)
  | DependencyModule_new (name : String) (version : String) (data_kind : Option String) (data : Option Value) : Built .dependencyModule (Api.DependencyModule.new name version data_kind data)
  | DependencyModule_new_simple (name : String) (version : String) : Built .dependencyModule (Api.DependencyModule.new_simple name version)
  | DependencyModule_set_name (x : DependencyModule) (v) : Built .dependencyModule x → Built .dependencyModule (Api.DependencyModule.set_name x v)
  | DependencyModule_set_version (x : DependencyModule) (v) : Built .dependencyModule x → Built .dependencyModule (Api.DependencyModule.set_version x v)
  | DependencyModule_set_data_kind (x : DependencyModule) (v) : Built .dependencyModule x → Built .dependencyModule (Api.DependencyModule.set_data_kind x v)
  | DependencyModulesItem_new (target : BuildTargetIdentifier) (modules : List DependencyModule) : Built .buildTargetIdentifier target → (∀ y ∈ modules, Built .dependencyModule y) → Built .dependencyModulesItem (Api.DependencyModulesItem.new target modules)
  | DependencyModulesItem_set_modules (x : DependencyModulesItem) (v) : Built .dependencyModulesItem x → (∀ y ∈ v, Built .dependencyModule y) → Built .dependencyModulesItem (Api.DependencyModulesItem.set_modules x v)
  | default_BuildTargetDependencyModulesResult : Built .buildTargetDependencyModulesResult (Api.default_BuildTargetDependencyModulesResult)
  | BuildTargetDependencyModulesResult_new (items : List DependencyModulesItem) : (∀ y ∈ items, Built .dependencyModulesItem y) → Built .buildTargetDependencyModulesResult (Api.BuildTargetDependencyModulesResult.new items)
  | BuildTargetDependencyModulesResult_items_mut (x : BuildTargetDependencyModulesResult) (v) : Built .buildTargetDependencyModulesResult x → (∀ y ∈ v, Built .dependencyModulesItem y) → Built .buildTargetDependencyModulesResult (Api.BuildTargetDependencyModulesResult.items_mut x v)
  | BuildTargetCleanCacheResult_new (message : Option String) (cleaned : Bool) : Built .buildTargetCleanCacheResult (Api.BuildTargetCleanCacheResult.new message cleaned)
  | BuildTargetCleanCacheResult_new_simple (cleaned : Bool) : Built .buildTargetCleanCacheResult (Api.BuildTargetCleanCacheResult.new_simple cleaned)
  | BuildTargetCleanCacheResult_set_cleaned (x : BuildTargetCleanCacheResult) (v) : Built .buildTargetCleanCacheResult x → Built .buildTargetCleanCacheResult (Api.BuildTargetCleanCacheResult.set_cleaned x v)
  | BuildTargetCleanCacheResult_set_message (x : BuildTargetCleanCacheResult) (v) : Built .buildTargetCleanCacheResult x → Built .buildTargetCleanCacheResult (Api.BuildTargetCleanCacheResult.set_message x v)
  | default_BuildTargetInverseSourcesResult : Built .buildTargetInverseSourcesResult (Api.default_BuildTargetInverseSourcesResult)
  | DependencySourcesItem_set_target (x : DependencySourcesItem) (v) : Built .dependencySourcesItem x → Built .buildTargetIdentifier v → Built .dependencySourcesItem (Api.DependencySourcesItem.set_target x v)
  | DependencySourcesItem_set_sources (x : DependencySourcesItem) (v) : Built .dependencySourcesItem x → Built .dependencySourcesItem (Api.DependencySourcesItem.set_sources x v)
  | default_BuildTargetDependencySourcesResult : Built .buildTargetDependencySourcesResult (Api.default_BuildTargetDependencySourcesResult)
  | TaskId_add_parent (x : TaskId) (v) : Built .taskId x → Built .taskId (Api.TaskId.add_parent x v)

namespace Spec
/-- The payload types of which no value can be built. -/
def unbuildable : List Payload :=
  [.buildTargetCleanCache, .buildTargetDependencyModules, .publishDiagnostics, .dependencySourcesItem]
/-- The payload types of which only the empty value can be built. -/
def onlyEmpty : List Payload := [.buildTargetInverseSourcesResult, .buildTargetDependencySourcesResult]
end Spec

/-- C68 (violated): of these types nothing can be built. -/
theorem C68_violated [Ext] (p : Payload) (x : p.Carrier) (h : Api.Built p x) : p ∉ Spec.unbuildable := by
  induction h <;> first | decide | assumption

/-- C68 (violated): of these types only the empty list can be built. -/
theorem C68_empty [Ext] :
    (∀ x : BuildTargetInverseSourcesResult, Api.Built .buildTargetInverseSourcesResult x → x.targets = []) ∧
    (∀ x : BuildTargetDependencySourcesResult, Api.Built .buildTargetDependencySourcesResult x → x.items = []) := by
  constructor
  · intro x h; cases h; rfl
  · intro x h; cases h; rfl

theorem built_BuildTargetIdentifier [Ext] (x : BuildTargetIdentifier) : Api.Built .buildTargetIdentifier x :=
  have h := Api.Built.BuildTargetIdentifier_new x.uri
  h

theorem built_TextDocumentIdentifier [Ext] (x : TextDocumentIdentifier) : Api.Built .textDocumentIdentifier x :=
  .TextDocumentIdentifier_literal x 

theorem built_ClientCapabilities [Ext] (x : ClientCapabilities) : Api.Built .clientCapabilities x :=
  have h := Api.Built.ClientCapabilities_new x.languageIds
  h

theorem built_InitializeBuild [Ext] (x : InitializeBuild) : Api.Built .initializeBuild x :=
  have h := Api.Built.InitializeBuild_set_data _ x.data (Api.Built.InitializeBuild_new_simple x.displayName x.version x.bspVersion x.rootUri x.capabilities (built_ClientCapabilities x.capabilities))
  h

theorem built_BuildTargetResources [Ext] (x : BuildTargetResources) : Api.Built .buildTargetResources x :=
  have h := Api.Built.BuildTargetResources_new x.targets (fun y _ => built_BuildTargetIdentifier y)
  h

theorem built_BuildTargetSources [Ext] (x : BuildTargetSources) : Api.Built .buildTargetSources x :=
  have h := Api.Built.BuildTargetSources_new x.targets (fun y _ => built_BuildTargetIdentifier y)
  h

theorem built_BuildTargetCompile [Ext] (x : BuildTargetCompile) : Api.Built .buildTargetCompile x :=
  have h := Api.Built.BuildTargetCompile_new x.target x.originId x.arguments (built_BuildTargetIdentifier x.target)
  h

theorem built_BuildTargetRun [Ext] (x : BuildTargetRun) : Api.Built .buildTargetRun x :=
  have h := Api.Built.BuildTargetRun_new x.target x.originId x.arguments x.dataKind x.data (built_BuildTargetIdentifier x.target)
  h

theorem built_BuildTargetTest [Ext] (x : BuildTargetTest) : Api.Built .buildTargetTest x :=
  have h := Api.Built.BuildTargetTest_new x.target x.originId x.arguments x.dataKind x.data (built_BuildTargetIdentifier x.target)
  h

theorem built_BuildTargetDependencySources [Ext] (x : BuildTargetDependencySources) : Api.Built .buildTargetDependencySources x :=
  have h := Api.Built.BuildTargetDependencySources_new x.textDocument (built_TextDocumentIdentifier x.textDocument)
  h

theorem built_TextDocumentInverseSources [Ext] (x : TextDocumentInverseSources) : Api.Built .textDocumentInverseSources x :=
  have h := Api.Built.TextDocumentInverseSources_new x.textDocument (built_TextDocumentIdentifier x.textDocument)
  h

theorem built_DebugSessionStart [Ext] (x : DebugSessionStart) : Api.Built .debugSessionStart x :=
  have h := Api.Built.DebugSessionStart_new x.targets x.dataKind x.data (fun y _ => built_BuildTargetIdentifier y)
  h

theorem built_TaskId [Ext] (x : TaskId) : Api.Built .taskId x :=
  have h := Api.Built.TaskId_new x.id x.parents
  h

theorem built_ShowMessage [Ext] (x : ShowMessage) : Api.Built .showMessage x :=
  .ShowMessage_literal x (fun y _ => built_TaskId y)

theorem built_LogMessage [Ext] (x : LogMessage) : Api.Built .logMessage x :=
  .LogMessage_literal x (fun y _ => built_TaskId y)

theorem built_Position [Ext] (x : Position) : Api.Built .position x :=
  .Position_literal x 

theorem built_Range [Ext] (x : Range) : Api.Built .range x :=
  .Range_literal x (built_Position x.start) (built_Position x.end_)

theorem built_CodeDescription [Ext] (x : CodeDescription) : Api.Built .codeDescription x :=
  .CodeDescription_literal x 

theorem built_Location [Ext] (x : Location) : Api.Built .location x :=
  .Location_literal x (built_Range x.range)

theorem built_DiagnosticRelatedInformation [Ext] (x : DiagnosticRelatedInformation) : Api.Built .diagnosticRelatedInformation x :=
  .DiagnosticRelatedInformation_literal x (built_Location x.location)

/-- C68 (violated): a diagnostic can be built exactly if its severity and its tags have names; others can be received.
-/
theorem C68_diagnostic [Ext] (x : Diagnostic) : Api.Built .diagnostic x ↔ Spec.Named x :=
  ⟨fun h => by cases h; assumption, fun h => .Diagnostic_literal x h (built_Range x.range) (fun y _ => built_CodeDescription y) (fun _ _ y _ => built_DiagnosticRelatedInformation y)⟩

theorem built_TaskStart [Ext] (x : TaskStart) : Api.Built .taskStart x :=
  .TaskStart_literal x (built_TaskId x.taskId)

theorem built_TaskFinish [Ext] (x : TaskFinish) : Api.Built .taskFinish x :=
  .TaskFinish_literal x (built_TaskId x.taskId)

theorem built_TaskProgress [Ext] (x : TaskProgress) : Api.Built .taskProgress x :=
  .TaskProgress_literal x (built_TaskId x.taskId)

theorem built_BuildTargetEvent [Ext] (x : BuildTargetEvent) : Api.Built .buildTargetEvent x :=
  .BuildTargetEvent_literal x (built_BuildTargetIdentifier x.target)

theorem built_BuildTargetDidChange [Ext] (x : BuildTargetDidChange) : Api.Built .buildTargetDidChange x :=
  .BuildTargetDidChange_literal x (fun y _ => built_BuildTargetEvent y)

theorem built_CompileProvider [Ext] (x : CompileProvider) : Api.Built .compileProvider x :=
  .CompileProvider_literal x 

theorem built_TestProvider [Ext] (x : TestProvider) : Api.Built .testProvider x :=
  .TestProvider_literal x 

theorem built_RunProvider [Ext] (x : RunProvider) : Api.Built .runProvider x :=
  .RunProvider_literal x 

theorem built_DebugProvider [Ext] (x : DebugProvider) : Api.Built .debugProvider x :=
  .DebugProvider_literal x 

theorem built_ServerCapabilities [Ext] (x : ServerCapabilities) : Api.Built .serverCapabilities x :=
  by
  have h := Api.Built.ServerCapabilities_set_build_target_changed_provider _ x.buildTargetChangedProvider (Api.Built.ServerCapabilities_set_can_reload _ x.canReload (Api.Built.ServerCapabilities_set_resources_provider _ x.resourcesProvider (Api.Built.ServerCapabilities_set_dependency_modules_provider _ x.dependencyModulesProvider (Api.Built.ServerCapabilities_set_dependency_sources_provider _ x.dependencySourcesProvider (Api.Built.ServerCapabilities_set_inverse_sources_provider _ x.inverseSourcesProvider (Api.Built.ServerCapabilities_set_debug_provider _ x.debugProvider (Api.Built.ServerCapabilities_set_run_provider _ x.runProvider (Api.Built.ServerCapabilities_set_test_provider _ x.testProvider (Api.Built.ServerCapabilities_set_compile_provider _ x.compileProvider (Api.Built.default_ServerCapabilities) (fun y _ => built_CompileProvider y)) (fun y _ => built_TestProvider y)) (fun y _ => built_RunProvider y)) (fun y _ => built_DebugProvider y)))))))
  simpa only [Api.default_ServerCapabilities, Api.ServerCapabilities.set_compile_provider, Api.ServerCapabilities.set_test_provider, Api.ServerCapabilities.set_run_provider, Api.ServerCapabilities.set_debug_provider, Api.ServerCapabilities.set_inverse_sources_provider, Api.ServerCapabilities.set_dependency_sources_provider, Api.ServerCapabilities.set_dependency_modules_provider, Api.ServerCapabilities.set_resources_provider, Api.ServerCapabilities.set_can_reload, Api.ServerCapabilities.set_build_target_changed_provider] using h

theorem built_InitializeBuildResult [Ext] (x : InitializeBuildResult) : Api.Built .initializeBuildResult x :=
  have h := Api.Built.InitializeBuildResult_data_mut _ x.data (Api.Built.InitializeBuildResult_new_simple x.displayName x.version x.bspVersion x.capabilities (built_ServerCapabilities x.capabilities))
  h

theorem built_BuildTargetCapabilities [Ext] (x : BuildTargetCapabilities) : Api.Built .buildTargetCapabilities x :=
  have h := Api.Built.BuildTargetCapabilities_new x.canCompile x.canTest x.canRun x.canDebug
  h

theorem built_BuildTarget [Ext] (x : BuildTarget) : Api.Built .buildTarget x :=
  .BuildTarget_literal x (built_BuildTargetIdentifier x.id) (built_BuildTargetCapabilities x.capabilities) (fun y _ => built_BuildTargetIdentifier y)

theorem built_WorkspaceBuildTargetsResult [Ext] (x : WorkspaceBuildTargetsResult) : Api.Built .workspaceBuildTargetsResult x :=
  .WorkspaceBuildTargetsResult_literal x (fun y _ => built_BuildTarget y)

theorem built_DebugSessionStartResult [Ext] (x : DebugSessionStartResult) : Api.Built .debugSessionStartResult x :=
  have h := Api.Built.DebugSessionStartResult_new x.uri
  h

theorem built_Sources [Ext] (x : Sources) : Api.Built .sources x :=
  have h := Api.Built.Sources_new x.uri x.kind x.generated
  h

theorem built_SourcesCollection [Ext] (x : SourcesCollection) : Api.Built .sourcesCollection x :=
  have h := Api.Built.SourcesCollection_new x.target x.sources (built_BuildTargetIdentifier x.target) (fun y _ => built_Sources y)
  h

theorem built_BuildTargetSourcesResult [Ext] (x : BuildTargetSourcesResult) : Api.Built .buildTargetSourcesResult x :=
  have h := Api.Built.BuildTargetSourcesResult_new x.items (fun y _ => built_SourcesCollection y)
  h

theorem built_BuildTargetCompileResult [Ext] (x : BuildTargetCompileResult) : Api.Built .buildTargetCompileResult x :=
  have h := Api.Built.BuildTargetCompileResult_new x.originId x.statusCode x.dataKind x.data
  h

theorem built_BuildTargetTestResult [Ext] (x : BuildTargetTestResult) : Api.Built .buildTargetTestResult x :=
  have h := Api.Built.BuildTargetTestResult_new x.originId x.statusCode x.dataKind x.data
  h

theorem built_BuildTargetRunResult [Ext] (x : BuildTargetRunResult) : Api.Built .buildTargetRunResult x :=
  have h := Api.Built.BuildTargetRunResult_new x.originId x.statusCode
  h

theorem built_Resources [Ext] (x : Resources) : Api.Built .resources x :=
  have h := Api.Built.Resources_new x.target x.resources (built_BuildTargetIdentifier x.target)
  h

theorem built_BuildTargetResourcesResult [Ext] (x : BuildTargetResourcesResult) : Api.Built .buildTargetResourcesResult x :=
  have h := Api.Built.BuildTargetResourcesResult_new x.items (fun y _ => built_Resources y)
  h

theorem built_DependencyModule [Ext] (x : DependencyModule) : Api.Built .dependencyModule x :=
  have h := Api.Built.DependencyModule_new x.name x.version x.dataKind x.data
  h

theorem built_DependencyModulesItem [Ext] (x : DependencyModulesItem) : Api.Built .dependencyModulesItem x :=
  have h := Api.Built.DependencyModulesItem_new x.target x.modules (built_BuildTargetIdentifier x.target) (fun y _ => built_DependencyModule y)
  h

theorem built_BuildTargetDependencyModulesResult [Ext] (x : BuildTargetDependencyModulesResult) : Api.Built .buildTargetDependencyModulesResult x :=
  have h := Api.Built.BuildTargetDependencyModulesResult_new x.items (fun y _ => built_DependencyModulesItem y)
  h

theorem built_BuildTargetCleanCacheResult [Ext] (x : BuildTargetCleanCacheResult) : Api.Built .buildTargetCleanCacheResult x :=
  have h := Api.Built.BuildTargetCleanCacheResult_new x.message x.cleaned
  h

/-- C68 (partial; missing: the types above, for which it is false): of every other payload type, every value can be
built. -/
theorem C68_partial [Ext] (p : Payload) (h : p ∉ Spec.unbuildable) (h' : p ∉ Spec.onlyEmpty)
    (hd : p ≠ .diagnostic) (x : p.Carrier) :
    Api.Built p x := by
  cases p
  case buildTargetIdentifier => exact built_BuildTargetIdentifier x
  case textDocumentIdentifier => exact built_TextDocumentIdentifier x
  case clientCapabilities => exact built_ClientCapabilities x
  case initializeBuild => exact built_InitializeBuild x
  case buildTargetCleanCache => exact absurd (by decide) h
  case buildTargetDependencyModules => exact absurd (by decide) h
  case buildTargetResources => exact built_BuildTargetResources x
  case buildTargetSources => exact built_BuildTargetSources x
  case buildTargetCompile => exact built_BuildTargetCompile x
  case buildTargetRun => exact built_BuildTargetRun x
  case buildTargetTest => exact built_BuildTargetTest x
  case buildTargetDependencySources => exact built_BuildTargetDependencySources x
  case textDocumentInverseSources => exact built_TextDocumentInverseSources x
  case debugSessionStart => exact built_DebugSessionStart x
  case taskId => exact built_TaskId x
  case showMessage => exact built_ShowMessage x
  case logMessage => exact built_LogMessage x
  case position => exact built_Position x
  case range => exact built_Range x
  case codeDescription => exact built_CodeDescription x
  case location => exact built_Location x
  case diagnosticRelatedInformation => exact built_DiagnosticRelatedInformation x
  case diagnostic => exact absurd rfl hd
  case publishDiagnostics => exact absurd (by decide) h
  case taskStart => exact built_TaskStart x
  case taskFinish => exact built_TaskFinish x
  case taskProgress => exact built_TaskProgress x
  case buildTargetEvent => exact built_BuildTargetEvent x
  case buildTargetDidChange => exact built_BuildTargetDidChange x
  case compileProvider => exact built_CompileProvider x
  case testProvider => exact built_TestProvider x
  case runProvider => exact built_RunProvider x
  case debugProvider => exact built_DebugProvider x
  case serverCapabilities => exact built_ServerCapabilities x
  case initializeBuildResult => exact built_InitializeBuildResult x
  case buildTargetCapabilities => exact built_BuildTargetCapabilities x
  case buildTarget => exact built_BuildTarget x
  case workspaceBuildTargetsResult => exact built_WorkspaceBuildTargetsResult x
  case debugSessionStartResult => exact built_DebugSessionStartResult x
  case sources => exact built_Sources x
  case sourcesCollection => exact built_SourcesCollection x
  case buildTargetSourcesResult => exact built_BuildTargetSourcesResult x
  case buildTargetCompileResult => exact built_BuildTargetCompileResult x
  case buildTargetTestResult => exact built_BuildTargetTestResult x
  case buildTargetRunResult => exact built_BuildTargetRunResult x
  case resources => exact built_Resources x
  case buildTargetResourcesResult => exact built_BuildTargetResourcesResult x
  case dependencyModule => exact built_DependencyModule x
  case dependencyModulesItem => exact built_DependencyModulesItem x
  case buildTargetDependencyModulesResult => exact built_BuildTargetDependencyModulesResult x
  case buildTargetCleanCacheResult => exact built_BuildTargetCleanCacheResult x
  case buildTargetInverseSourcesResult => exact absurd (by decide) h'
  case dependencySourcesItem => exact absurd (by decide) h
  case buildTargetDependencySourcesResult => exact absurd (by decide) h'

section
attribute [local instance] Ext.sample
/-- Beside C68: a compile request can be built, a clean-cache request cannot, though it can be received. -/
example (u : Ext.Url) : Api.Built .buildTargetCompile (⟨⟨u⟩, some "o", none⟩ : BuildTargetCompile) ∧
    ¬ Api.Built .buildTargetCleanCache (⟨[⟨u⟩]⟩ : BuildTargetCleanCache) ∧
    BuildTargetCleanCache.dec (.obj [("targets", .arr [])]) = some ⟨[]⟩ :=
  ⟨C68_partial _ (by decide) (by decide) (by decide) _, fun h => C68_violated _ _ h (by decide), rfl⟩
/-- Beside C68_diagnostic: a diagnostic of severity 7 can be received but not built, one of severity 2 can be built. -/
example : (Diagnostic.dec (.obj [("range", .arr [.arr [.int 0, .int 0], .arr [.int 0, .int 1]]), ("message", .str "m"),
      ("severity", .int 7)]) = some ⟨⟨⟨0, 0⟩, ⟨0, 1⟩⟩, some 7, none, none, none, "m", none, none, none⟩ ∧
    ¬ Api.Built .diagnostic (⟨⟨⟨0, 0⟩, ⟨0, 1⟩⟩, some 7, none, none, none, "m", none, none, none⟩ : Diagnostic)) ∧
    Api.Built .diagnostic (⟨⟨⟨0, 0⟩, ⟨0, 1⟩⟩, some 2, none, none, none, "m", none, none, none⟩ : Diagnostic) :=
  ⟨⟨rfl, fun h => absurd ((C68_diagnostic _).1 h).1 (by simp)⟩, (C68_diagnostic _).2 (by simp [Spec.Named])⟩
end

end Bsp
