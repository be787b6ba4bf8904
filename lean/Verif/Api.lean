/-
The constructors, setters and getters of bsp-types/src, translated one by one from their bodies by
tools/gen_api.py.  Names are those of the Rust functions; `&mut self` setters return the changed object;
`Into<String>` parameters are strings; a `f_mut` accessor is modelled by the object after writing through the
reference.  `Option<&T>`, `&[T]` and `&str` results are modelled by the value referred to.
Not modelled: `InitializeBuild::root_path` (bsp-types/src/initialize_params.rs:103-105).
-/
import Verif.Types

namespace Bsp.Api

/-- Derived `Default for ClientCapabilities`. bsp-types/src/client_capabilities.rs:3-11. -/
def default_ClientCapabilities : ClientCapabilities :=
  ⟨[]⟩

/-- Derived `Default for DebugSessionStart`. bsp-types/src/debug_session_start.rs:8-22. -/
def default_DebugSessionStart [Ext] : DebugSessionStart :=
  ⟨[], "", Value.null⟩

/-- Derived `Default for ShowMessage`. bsp-types/src/show_message.rs:13-30. -/
def default_ShowMessage : ShowMessage :=
  ⟨MessageType.log, "", none, none⟩

/-- Derived `Default for LogMessage`. bsp-types/src/log_message.rs:13-30. -/
def default_LogMessage : LogMessage :=
  ⟨MessageType.log, none, none, ""⟩

/-- Derived `Default for TaskId`. bsp-types/src/task/id.rs:3-18. -/
def default_TaskId : TaskId :=
  ⟨"", []⟩

/-- Derived `Default for TaskStart`. bsp-types/src/task/start.rs:6-30. -/
def default_TaskStart : TaskStart :=
  ⟨default_TaskId, none, "", TaskDataKind.none, Value.null⟩

/-- Derived `Default for TaskFinish`. bsp-types/src/task/finish.rs:7-34. -/
def default_TaskFinish : TaskFinish :=
  ⟨default_TaskId, none, "", TaskStatus.ok, TaskDataKind.none, Value.null⟩

/-- Derived `Default for TaskProgress`. bsp-types/src/task/progress.rs:7-41. -/
def default_TaskProgress : TaskProgress :=
  ⟨default_TaskId, none, "", none, none, "", TaskDataKind.none, Value.null⟩

/-- Derived `Default for BuildTargetDidChange`. bsp-types/src/bt_did_change.rs:7-10. -/
def default_BuildTargetDidChange [Ext] : BuildTargetDidChange :=
  ⟨[]⟩

/-- Derived `Default for CompileProvider`. bsp-types/src/providers.rs:3-7. -/
def default_CompileProvider : CompileProvider :=
  ⟨[]⟩

/-- Derived `Default for TestProvider`. bsp-types/src/providers.rs:9-13. -/
def default_TestProvider : TestProvider :=
  ⟨[]⟩

/-- Derived `Default for RunProvider`. bsp-types/src/providers.rs:15-19. -/
def default_RunProvider : RunProvider :=
  ⟨[]⟩

/-- Derived `Default for DebugProvider`. bsp-types/src/providers.rs:21-25. -/
def default_DebugProvider : DebugProvider :=
  ⟨[]⟩

/-- Derived `Default for ServerCapabilities`. bsp-types/src/server_capabilities.rs:5-57. -/
def default_ServerCapabilities : ServerCapabilities :=
  ⟨none, none, none, none, none, none, none, none, none, none⟩

/-- Derived `Default for InitializeBuildResult`. bsp-types/src/initialize_result.rs:6-20. -/
def default_InitializeBuildResult : InitializeBuildResult :=
  ⟨"", "", "", default_ServerCapabilities, none⟩

/-- Derived `Default for BuildTargetCapabilities`. bsp-types/src/bt_capabilities.rs:4-18. -/
def default_BuildTargetCapabilities : BuildTargetCapabilities :=
  ⟨false, false, false, false⟩

/-- Derived `Default for WorkspaceBuildTargetsResult`. bsp-types/src/workspace_build_targets.rs:9-12. -/
def default_WorkspaceBuildTargetsResult [Ext] : WorkspaceBuildTargetsResult :=
  ⟨[]⟩

/-- Derived `Default for BuildTargetSourcesResult`. bsp-types/src/bt_sources.rs:30-33. -/
def default_BuildTargetSourcesResult [Ext] : BuildTargetSourcesResult :=
  ⟨[]⟩

/-- Derived `Default for BuildTargetResourcesResult`. bsp-types/src/bt_resources.rs:37-40. -/
def default_BuildTargetResourcesResult [Ext] : BuildTargetResourcesResult :=
  ⟨[]⟩

/-- Derived `Default for DependencyModule`. bsp-types/src/bt_dependency_modules.rs:83-98. -/
def default_DependencyModule : DependencyModule :=
  ⟨"", "", none, none⟩

/-- Derived `Default for BuildTargetDependencyModulesResult`. bsp-types/src/bt_dependency_modules.rs:35-38. -/
def default_BuildTargetDependencyModulesResult [Ext] : BuildTargetDependencyModulesResult :=
  ⟨[]⟩

/-- Derived `Default for BuildTargetInverseSourcesResult`. bsp-types/src/bt_inverse_sources.rs:32-35. -/
def default_BuildTargetInverseSourcesResult [Ext] : BuildTargetInverseSourcesResult :=
  ⟨[]⟩

/-- Derived `Default for BuildTargetDependencySourcesResult`. bsp-types/src/bt_dependency_sources.rs:35-38. -/
def default_BuildTargetDependencySourcesResult [Ext] : BuildTargetDependencySourcesResult :=
  ⟨[]⟩

/-- `BuildTargetCapabilities::new`. bsp-types/src/bt_capabilities.rs:21-28. -/
def BuildTargetCapabilities.new (can_compile : Bool) (can_test : Bool) (can_run : Bool) (can_debug : Bool) : BuildTargetCapabilities :=
  ⟨can_compile, can_test, can_run, can_debug⟩

/-- `BuildTargetCapabilities::set_can_compile`. bsp-types/src/bt_capabilities.rs:31-33. -/
def BuildTargetCapabilities.set_can_compile (x : BuildTargetCapabilities) (can_compile : Bool) : BuildTargetCapabilities :=
  { x with canCompile := can_compile }

/-- `BuildTargetCapabilities::can_compile`. bsp-types/src/bt_capabilities.rs:36-38. -/
def BuildTargetCapabilities.can_compile (x : BuildTargetCapabilities) : Bool :=
  x.canCompile

/-- `BuildTargetCapabilities::set_can_test`. bsp-types/src/bt_capabilities.rs:41-43. -/
def BuildTargetCapabilities.set_can_test (x : BuildTargetCapabilities) (can_test : Bool) : BuildTargetCapabilities :=
  { x with canTest := can_test }

/-- `BuildTargetCapabilities::can_test`. bsp-types/src/bt_capabilities.rs:46-48. -/
def BuildTargetCapabilities.can_test (x : BuildTargetCapabilities) : Bool :=
  x.canTest

/-- `BuildTargetCapabilities::set_can_run`. bsp-types/src/bt_capabilities.rs:51-53. -/
def BuildTargetCapabilities.set_can_run (x : BuildTargetCapabilities) (can_run : Bool) : BuildTargetCapabilities :=
  { x with canRun := can_run }

/-- `BuildTargetCapabilities::can_run`. bsp-types/src/bt_capabilities.rs:56-58. -/
def BuildTargetCapabilities.can_run (x : BuildTargetCapabilities) : Bool :=
  x.canRun

/-- `BuildTargetCapabilities::set_can_debug`. bsp-types/src/bt_capabilities.rs:61-63. -/
def BuildTargetCapabilities.set_can_debug (x : BuildTargetCapabilities) (can_debug : Bool) : BuildTargetCapabilities :=
  { x with canDebug := can_debug }

/-- `BuildTargetCapabilities::can_debug`. bsp-types/src/bt_capabilities.rs:66-68. -/
def BuildTargetCapabilities.can_debug (x : BuildTargetCapabilities) : Bool :=
  x.canDebug

/-- `BuildTargetCleanCache::targets`. bsp-types/src/bt_clean_cache.rs:21-23. -/
def BuildTargetCleanCache.targets [Ext] (x : BuildTargetCleanCache) : List BuildTargetIdentifier :=
  x.targets

/-- `BuildTargetCleanCache::targets_mut`: the object after writing `v` through the reference it returns. bsp-types/src/bt_clean_cache.rs:26-28. -/
def BuildTargetCleanCache.targets_mut [Ext] (x : BuildTargetCleanCache) (v : List BuildTargetIdentifier) : BuildTargetCleanCache :=
  { x with targets := v }

/-- `BuildTargetCleanCache::is_empty`. bsp-types/src/bt_clean_cache.rs:30-32. -/
def BuildTargetCleanCache.is_empty [Ext] (x : BuildTargetCleanCache) : Bool :=
  x.targets.isEmpty

/-- `BuildTargetCleanCache::set_targets`. bsp-types/src/bt_clean_cache.rs:35-37. -/
def BuildTargetCleanCache.set_targets [Ext] (x : BuildTargetCleanCache) (targets : List BuildTargetIdentifier) : BuildTargetCleanCache :=
  { x with targets := targets }

/-- `BuildTargetCleanCacheResult::new`. bsp-types/src/bt_clean_cache.rs:50-52. -/
def BuildTargetCleanCacheResult.new (message : Option String) (cleaned : Bool) : BuildTargetCleanCacheResult :=
  ⟨message, cleaned⟩

/-- `BuildTargetCleanCacheResult::new_simple`. bsp-types/src/bt_clean_cache.rs:53-58. -/
def BuildTargetCleanCacheResult.new_simple (cleaned : Bool) : BuildTargetCleanCacheResult :=
  ⟨none, cleaned⟩

/-- `BuildTargetCleanCacheResult::message`. bsp-types/src/bt_clean_cache.rs:61-63. -/
def BuildTargetCleanCacheResult.message (x : BuildTargetCleanCacheResult) : Option String :=
  x.message

/-- `BuildTargetCleanCacheResult::cleaned`. bsp-types/src/bt_clean_cache.rs:66-68. -/
def BuildTargetCleanCacheResult.cleaned (x : BuildTargetCleanCacheResult) : Bool :=
  x.cleaned

/-- `BuildTargetCleanCacheResult::set_cleaned`. bsp-types/src/bt_clean_cache.rs:71-73. -/
def BuildTargetCleanCacheResult.set_cleaned (x : BuildTargetCleanCacheResult) (cleaned : Bool) : BuildTargetCleanCacheResult :=
  { x with cleaned := cleaned }

/-- `BuildTargetCleanCacheResult::set_message`. bsp-types/src/bt_clean_cache.rs:76-78. -/
def BuildTargetCleanCacheResult.set_message (x : BuildTargetCleanCacheResult) (message : Option String) : BuildTargetCleanCacheResult :=
  { x with message := message }

/-- `BuildTargetCompile::new`. bsp-types/src/bt_compile.rs:24-34. -/
def BuildTargetCompile.new [Ext] (target : BuildTargetIdentifier) (origin_id : Option String) (arguments : Option String) : BuildTargetCompile :=
  ⟨target, origin_id, arguments⟩

/-- `BuildTargetCompile::new_simple`. bsp-types/src/bt_compile.rs:35-41. -/
def BuildTargetCompile.new_simple [Ext] (target : BuildTargetIdentifier) : BuildTargetCompile :=
  ⟨target, none, none⟩

/-- `BuildTargetCompile::target`. bsp-types/src/bt_compile.rs:44-46. -/
def BuildTargetCompile.target [Ext] (x : BuildTargetCompile) : BuildTargetIdentifier :=
  x.target

/-- `BuildTargetCompile::set_target`. bsp-types/src/bt_compile.rs:49-51. -/
def BuildTargetCompile.set_target [Ext] (x : BuildTargetCompile) (target : BuildTargetIdentifier) : BuildTargetCompile :=
  { x with target := target }

/-- `BuildTargetCompile::origin_id`. bsp-types/src/bt_compile.rs:54-56. -/
def BuildTargetCompile.origin_id [Ext] (x : BuildTargetCompile) : Option String :=
  x.originId

/-- `BuildTargetCompile::set_origin_id`. bsp-types/src/bt_compile.rs:59-61. -/
def BuildTargetCompile.set_origin_id [Ext] (x : BuildTargetCompile) (origin_id : Option String) : BuildTargetCompile :=
  { x with originId := origin_id }

/-- `BuildTargetCompile::arguments`. bsp-types/src/bt_compile.rs:64-66. -/
def BuildTargetCompile.arguments [Ext] (x : BuildTargetCompile) : Option String :=
  x.arguments

/-- `BuildTargetCompile::set_arguments`. bsp-types/src/bt_compile.rs:69-71. -/
def BuildTargetCompile.set_arguments [Ext] (x : BuildTargetCompile) (arguments : Option String) : BuildTargetCompile :=
  { x with arguments := arguments }

/-- `BuildTargetCompileResult::new`. bsp-types/src/bt_compile.rs:96-108. -/
def BuildTargetCompileResult.new (origin_id : Option String) (status_code : UInt64) (data_kind : Option String) (data : Option Value) : BuildTargetCompileResult :=
  ⟨origin_id, status_code, data_kind, data⟩

/-- `BuildTargetCompileResult::new_simple`. bsp-types/src/bt_compile.rs:109-116. -/
def BuildTargetCompileResult.new_simple (status_code : UInt64) : BuildTargetCompileResult :=
  ⟨none, status_code, none, none⟩

/-- `BuildTargetCompileResult::origin_id`. bsp-types/src/bt_compile.rs:119-121. -/
def BuildTargetCompileResult.origin_id (x : BuildTargetCompileResult) : Option String :=
  x.originId

/-- `BuildTargetCompileResult::status_code`. bsp-types/src/bt_compile.rs:124-126. -/
def BuildTargetCompileResult.status_code (x : BuildTargetCompileResult) : UInt64 :=
  x.statusCode

/-- `BuildTargetCompileResult::set_origin_id`. bsp-types/src/bt_compile.rs:129-131. -/
def BuildTargetCompileResult.set_origin_id (x : BuildTargetCompileResult) (origin_id : Option String) : BuildTargetCompileResult :=
  { x with originId := origin_id }

/-- `BuildTargetCompileResult::set_status_code`. bsp-types/src/bt_compile.rs:134-136. -/
def BuildTargetCompileResult.set_status_code (x : BuildTargetCompileResult) (status_code : UInt64) : BuildTargetCompileResult :=
  { x with statusCode := status_code }

/-- `BuildTargetCompileResult::set_data_kind`. bsp-types/src/bt_compile.rs:139-141. -/
def BuildTargetCompileResult.set_data_kind (x : BuildTargetCompileResult) (data_kind : Option String) : BuildTargetCompileResult :=
  { x with dataKind := data_kind }

/-- `BuildTargetCompileResult::data_kind`. bsp-types/src/bt_compile.rs:144-146. -/
def BuildTargetCompileResult.data_kind (x : BuildTargetCompileResult) : Option String :=
  x.dataKind

/-- `BuildTargetCompileResult::set_data`. bsp-types/src/bt_compile.rs:149-151. -/
def BuildTargetCompileResult.set_data (x : BuildTargetCompileResult) (data : Option Value) : BuildTargetCompileResult :=
  { x with data := data }

/-- `BuildTargetCompileResult::data`. bsp-types/src/bt_compile.rs:154-156. -/
def BuildTargetCompileResult.data (x : BuildTargetCompileResult) : Option Value :=
  x.data

/-- `BuildTargetDependencyModules::targets`. bsp-types/src/bt_dependency_modules.rs:16-18. -/
def BuildTargetDependencyModules.targets [Ext] (x : BuildTargetDependencyModules) : List BuildTargetIdentifier :=
  x.targets

/-- `BuildTargetDependencyModules::targets_mut`: the object after writing `v` through the reference it returns. bsp-types/src/bt_dependency_modules.rs:21-23. -/
def BuildTargetDependencyModules.targets_mut [Ext] (x : BuildTargetDependencyModules) (v : List BuildTargetIdentifier) : BuildTargetDependencyModules :=
  { x with targets := v }

/-- `BuildTargetDependencyModules::is_empty`. bsp-types/src/bt_dependency_modules.rs:25-27. -/
def BuildTargetDependencyModules.is_empty [Ext] (x : BuildTargetDependencyModules) : Bool :=
  x.targets.isEmpty

/-- `BuildTargetDependencyModules::set_targets`. bsp-types/src/bt_dependency_modules.rs:30-32. -/
def BuildTargetDependencyModules.set_targets [Ext] (x : BuildTargetDependencyModules) (targets : List BuildTargetIdentifier) : BuildTargetDependencyModules :=
  { x with targets := targets }

/-- `BuildTargetDependencyModulesResult::new`. bsp-types/src/bt_dependency_modules.rs:41-43. -/
def BuildTargetDependencyModulesResult.new [Ext] (items : List DependencyModulesItem) : BuildTargetDependencyModulesResult :=
  ⟨items⟩

/-- `BuildTargetDependencyModulesResult::items`. bsp-types/src/bt_dependency_modules.rs:46-48. -/
def BuildTargetDependencyModulesResult.items [Ext] (x : BuildTargetDependencyModulesResult) : List DependencyModulesItem :=
  x.items

/-- `BuildTargetDependencyModulesResult::items_mut`: the object after writing `v` through the reference it returns. bsp-types/src/bt_dependency_modules.rs:51-53. -/
def BuildTargetDependencyModulesResult.items_mut [Ext] (x : BuildTargetDependencyModulesResult) (v : List DependencyModulesItem) : BuildTargetDependencyModulesResult :=
  { x with items := v }

/-- `DependencyModulesItem::new`. bsp-types/src/bt_dependency_modules.rs:63-65. -/
def DependencyModulesItem.new [Ext] (target : BuildTargetIdentifier) (modules : List DependencyModule) : DependencyModulesItem :=
  ⟨target, modules⟩

/-- `DependencyModulesItem::target`. bsp-types/src/bt_dependency_modules.rs:68-70. -/
def DependencyModulesItem.target [Ext] (x : DependencyModulesItem) : BuildTargetIdentifier :=
  x.target

/-- `DependencyModulesItem::set_modules`. bsp-types/src/bt_dependency_modules.rs:73-75. -/
def DependencyModulesItem.set_modules [Ext] (x : DependencyModulesItem) (modules : List DependencyModule) : DependencyModulesItem :=
  { x with modules := modules }

/-- `DependencyModulesItem::modules`. bsp-types/src/bt_dependency_modules.rs:78-80. -/
def DependencyModulesItem.modules [Ext] (x : DependencyModulesItem) : List DependencyModule :=
  x.modules

/-- `DependencyModule::new`. bsp-types/src/bt_dependency_modules.rs:101-113. -/
def DependencyModule.new (name : String) (version : String) (data_kind : Option String) (data : Option Value) : DependencyModule :=
  ⟨name, version, data_kind, data⟩

/-- `DependencyModule::new_simple`. bsp-types/src/bt_dependency_modules.rs:114-121. -/
def DependencyModule.new_simple (name : String) (version : String) : DependencyModule :=
  ⟨name, version, none, none⟩

/-- `DependencyModule::name`. bsp-types/src/bt_dependency_modules.rs:124-126. -/
def DependencyModule.name (x : DependencyModule) : String :=
  x.name

/-- `DependencyModule::set_name`. bsp-types/src/bt_dependency_modules.rs:129-131. -/
def DependencyModule.set_name (x : DependencyModule) (name : String) : DependencyModule :=
  { x with name := name }

/-- `DependencyModule::version`. bsp-types/src/bt_dependency_modules.rs:134-136. -/
def DependencyModule.version (x : DependencyModule) : String :=
  x.version

/-- `DependencyModule::set_version`. bsp-types/src/bt_dependency_modules.rs:139-141. -/
def DependencyModule.set_version (x : DependencyModule) (version : String) : DependencyModule :=
  { x with version := version }

/-- `DependencyModule::data_kind`. bsp-types/src/bt_dependency_modules.rs:144-146. -/
def DependencyModule.data_kind (x : DependencyModule) : Option String :=
  x.dataKind

/-- `DependencyModule::set_data_kind`. bsp-types/src/bt_dependency_modules.rs:149-151. -/
def DependencyModule.set_data_kind (x : DependencyModule) (data_kind : Option String) : DependencyModule :=
  { x with dataKind := data_kind }

/-- `BuildTargetDependencySources::new`. bsp-types/src/bt_dependency_sources.rs:20-22. -/
def BuildTargetDependencySources.new [Ext] (text_document : TextDocumentIdentifier) : BuildTargetDependencySources :=
  ⟨text_document⟩

/-- `BuildTargetDependencySources::text_document`. bsp-types/src/bt_dependency_sources.rs:25-27. -/
def BuildTargetDependencySources.text_document [Ext] (x : BuildTargetDependencySources) : TextDocumentIdentifier :=
  x.textDocument

/-- `BuildTargetDependencySources::set_text_document`. bsp-types/src/bt_dependency_sources.rs:30-32. -/
def BuildTargetDependencySources.set_text_document [Ext] (x : BuildTargetDependencySources) (text_document : TextDocumentIdentifier) : BuildTargetDependencySources :=
  { x with textDocument := text_document }

/-- `DependencySourcesItem::sources`. bsp-types/src/bt_dependency_sources.rs:55-57. -/
def DependencySourcesItem.sources [Ext] (x : DependencySourcesItem) : List String :=
  x.sources

/-- `DependencySourcesItem::target`. bsp-types/src/bt_dependency_sources.rs:60-62. -/
def DependencySourcesItem.target [Ext] (x : DependencySourcesItem) : BuildTargetIdentifier :=
  x.target

/-- `DependencySourcesItem::set_target`. bsp-types/src/bt_dependency_sources.rs:65-67. -/
def DependencySourcesItem.set_target [Ext] (x : DependencySourcesItem) (target : BuildTargetIdentifier) : DependencySourcesItem :=
  { x with target := target }

/-- `DependencySourcesItem::set_sources`. bsp-types/src/bt_dependency_sources.rs:70-72. -/
def DependencySourcesItem.set_sources [Ext] (x : DependencySourcesItem) (sources : List String) : DependencySourcesItem :=
  { x with sources := sources }

/-- `BuildTargetEvent::new`. bsp-types/src/bt_did_change.rs:29-35. -/
def BuildTargetEvent.new [Ext] (target : BuildTargetIdentifier) (kind : Option BuildTargetEventKind) (data : Option Value) : BuildTargetEvent :=
  ⟨target, kind, data⟩

/-- `BuildTargetEvent::new_simple`. bsp-types/src/bt_did_change.rs:36-42. -/
def BuildTargetEvent.new_simple [Ext] (target : BuildTargetIdentifier) : BuildTargetEvent :=
  ⟨target, none, none⟩

/-- `BuildTargetIdentifier::new`. bsp-types/src/bt_identifier.rs:10-12. -/
def BuildTargetIdentifier.new [Ext] (uri : Ext.Url) : BuildTargetIdentifier :=
  ⟨uri⟩

/-- `BuildTargetIdentifier::uri`. bsp-types/src/bt_identifier.rs:15-17. -/
def BuildTargetIdentifier.uri [Ext] (x : BuildTargetIdentifier) : String :=
  Ext.urlStr x.uri

/-- `BuildTargetIdentifier::set_uri`. bsp-types/src/bt_identifier.rs:20-22. -/
def BuildTargetIdentifier.set_uri [Ext] (x : BuildTargetIdentifier) (uri : Ext.Url) : BuildTargetIdentifier :=
  { x with uri := uri }

/-- `TextDocumentInverseSources::new`. bsp-types/src/bt_inverse_sources.rs:17-19. -/
def TextDocumentInverseSources.new [Ext] (text_document : TextDocumentIdentifier) : TextDocumentInverseSources :=
  ⟨text_document⟩

/-- `TextDocumentInverseSources::text_document`. bsp-types/src/bt_inverse_sources.rs:22-24. -/
def TextDocumentInverseSources.text_document [Ext] (x : TextDocumentInverseSources) : TextDocumentIdentifier :=
  x.textDocument

/-- `TextDocumentInverseSources::set_text_document`. bsp-types/src/bt_inverse_sources.rs:27-29. -/
def TextDocumentInverseSources.set_text_document [Ext] (x : TextDocumentInverseSources) (text_document : TextDocumentIdentifier) : TextDocumentInverseSources :=
  { x with textDocument := text_document }

/-- `BuildTargetResources::new`. bsp-types/src/bt_resources.rs:17-19. -/
def BuildTargetResources.new [Ext] (targets : List BuildTargetIdentifier) : BuildTargetResources :=
  ⟨targets⟩

/-- `BuildTargetResources::targets`. bsp-types/src/bt_resources.rs:22-24. -/
def BuildTargetResources.targets [Ext] (x : BuildTargetResources) : List BuildTargetIdentifier :=
  x.targets

/-- `BuildTargetResources::set_targets`. bsp-types/src/bt_resources.rs:27-29. -/
def BuildTargetResources.set_targets [Ext] (x : BuildTargetResources) (targets : List BuildTargetIdentifier) : BuildTargetResources :=
  { x with targets := targets }

/-- `BuildTargetResources::targets_mut`: the object after writing `v` through the reference it returns. bsp-types/src/bt_resources.rs:32-34. -/
def BuildTargetResources.targets_mut [Ext] (x : BuildTargetResources) (v : List BuildTargetIdentifier) : BuildTargetResources :=
  { x with targets := v }

/-- `BuildTargetResourcesResult::new`. bsp-types/src/bt_resources.rs:43-45. -/
def BuildTargetResourcesResult.new [Ext] (items : List Resources) : BuildTargetResourcesResult :=
  ⟨items⟩

/-- `BuildTargetResourcesResult::items`. bsp-types/src/bt_resources.rs:48-50. -/
def BuildTargetResourcesResult.items [Ext] (x : BuildTargetResourcesResult) : List Resources :=
  x.items

/-- `BuildTargetResourcesResult::items_mut`: the object after writing `v` through the reference it returns. bsp-types/src/bt_resources.rs:53-55. -/
def BuildTargetResourcesResult.items_mut [Ext] (x : BuildTargetResourcesResult) (v : List Resources) : BuildTargetResourcesResult :=
  { x with items := v }

/-- `Resources::new`. bsp-types/src/bt_resources.rs:66-68. -/
def Resources.new [Ext] (target : BuildTargetIdentifier) (resources : List String) : Resources :=
  ⟨target, resources⟩

/-- `Resources::set_target`. bsp-types/src/bt_resources.rs:71-73. -/
def Resources.set_target [Ext] (x : Resources) (target : BuildTargetIdentifier) : Resources :=
  { x with target := target }

/-- `Resources::target`. bsp-types/src/bt_resources.rs:76-78. -/
def Resources.target [Ext] (x : Resources) : BuildTargetIdentifier :=
  x.target

/-- `Resources::set_resources`. bsp-types/src/bt_resources.rs:81-83. -/
def Resources.set_resources [Ext] (x : Resources) (resources : List String) : Resources :=
  { x with resources := resources }

/-- `Resources::resources`. bsp-types/src/bt_resources.rs:86-88. -/
def Resources.resources [Ext] (x : Resources) : List String :=
  x.resources

/-- `BuildTargetRun::new`. bsp-types/src/bt_run.rs:33-47. -/
def BuildTargetRun.new [Ext] (target : BuildTargetIdentifier) (origin_id : Option String) (arguments : Option String) (data_kind : Option String) (data : Option Value) : BuildTargetRun :=
  ⟨target, origin_id, arguments, data_kind, data⟩

/-- `BuildTargetRun::new_simple`. bsp-types/src/bt_run.rs:48-56. -/
def BuildTargetRun.new_simple [Ext] (target : BuildTargetIdentifier) : BuildTargetRun :=
  ⟨target, none, none, none, none⟩

/-- `BuildTargetRun::target`. bsp-types/src/bt_run.rs:59-61. -/
def BuildTargetRun.target [Ext] (x : BuildTargetRun) : BuildTargetIdentifier :=
  x.target

/-- `BuildTargetRun::set_target`. bsp-types/src/bt_run.rs:64-66. -/
def BuildTargetRun.set_target [Ext] (x : BuildTargetRun) (target : BuildTargetIdentifier) : BuildTargetRun :=
  { x with target := target }

/-- `BuildTargetRun::origin_id`. bsp-types/src/bt_run.rs:69-71. -/
def BuildTargetRun.origin_id [Ext] (x : BuildTargetRun) : Option String :=
  x.originId

/-- `BuildTargetRun::set_origin_id`. bsp-types/src/bt_run.rs:74-76. -/
def BuildTargetRun.set_origin_id [Ext] (x : BuildTargetRun) (origin_id : Option String) : BuildTargetRun :=
  { x with originId := origin_id }

/-- `BuildTargetRun::arguments`. bsp-types/src/bt_run.rs:79-81. -/
def BuildTargetRun.arguments [Ext] (x : BuildTargetRun) : Option String :=
  x.arguments

/-- `BuildTargetRun::set_arguments`. bsp-types/src/bt_run.rs:84-86. -/
def BuildTargetRun.set_arguments [Ext] (x : BuildTargetRun) (arguments : Option String) : BuildTargetRun :=
  { x with arguments := arguments }

/-- `BuildTargetRun::data_kind`. bsp-types/src/bt_run.rs:89-91. -/
def BuildTargetRun.data_kind [Ext] (x : BuildTargetRun) : Option String :=
  x.dataKind

/-- `BuildTargetRun::set_data_kind`. bsp-types/src/bt_run.rs:94-96. -/
def BuildTargetRun.set_data_kind [Ext] (x : BuildTargetRun) (data_kind : Option String) : BuildTargetRun :=
  { x with dataKind := data_kind }

/-- `BuildTargetRun::data`. bsp-types/src/bt_run.rs:99-101. -/
def BuildTargetRun.data [Ext] (x : BuildTargetRun) : Option Value :=
  x.data

/-- `BuildTargetRun::set_data`. bsp-types/src/bt_run.rs:104-106. -/
def BuildTargetRun.set_data [Ext] (x : BuildTargetRun) (data : Option Value) : BuildTargetRun :=
  { x with data := data }

/-- `BuildTargetRunResult::new`. bsp-types/src/bt_run.rs:122-127. -/
def BuildTargetRunResult.new (origin_id : Option String) (status_code : UInt64) : BuildTargetRunResult :=
  ⟨origin_id, status_code⟩

/-- `BuildTargetRunResult::origin_id`. bsp-types/src/bt_run.rs:130-132. -/
def BuildTargetRunResult.origin_id (x : BuildTargetRunResult) : Option String :=
  x.originId

/-- `BuildTargetRunResult::status_code`. bsp-types/src/bt_run.rs:135-137. -/
def BuildTargetRunResult.status_code (x : BuildTargetRunResult) : UInt64 :=
  x.statusCode

/-- `BuildTargetRunResult::set_origin_id`. bsp-types/src/bt_run.rs:140-142. -/
def BuildTargetRunResult.set_origin_id (x : BuildTargetRunResult) (origin_id : Option String) : BuildTargetRunResult :=
  { x with originId := origin_id }

/-- `BuildTargetRunResult::set_status_code`. bsp-types/src/bt_run.rs:145-147. -/
def BuildTargetRunResult.set_status_code (x : BuildTargetRunResult) (status_code : UInt64) : BuildTargetRunResult :=
  { x with statusCode := status_code }

/-- `BuildTargetSources::new`. bsp-types/src/bt_sources.rs:15-17. -/
def BuildTargetSources.new [Ext] (targets : List BuildTargetIdentifier) : BuildTargetSources :=
  ⟨targets⟩

/-- `BuildTargetSources::targets`. bsp-types/src/bt_sources.rs:20-22. -/
def BuildTargetSources.targets [Ext] (x : BuildTargetSources) : List BuildTargetIdentifier :=
  x.targets

/-- `BuildTargetSources::set_targets`. bsp-types/src/bt_sources.rs:25-27. -/
def BuildTargetSources.set_targets [Ext] (x : BuildTargetSources) (targets : List BuildTargetIdentifier) : BuildTargetSources :=
  { x with targets := targets }

/-- `BuildTargetSourcesResult::new`. bsp-types/src/bt_sources.rs:36-38. -/
def BuildTargetSourcesResult.new [Ext] (items : List SourcesCollection) : BuildTargetSourcesResult :=
  ⟨items⟩

/-- `BuildTargetSourcesResult::items`. bsp-types/src/bt_sources.rs:41-43. -/
def BuildTargetSourcesResult.items [Ext] (x : BuildTargetSourcesResult) : List SourcesCollection :=
  x.items

/-- `BuildTargetSourcesResult::set_items`. bsp-types/src/bt_sources.rs:46-48. -/
def BuildTargetSourcesResult.set_items [Ext] (x : BuildTargetSourcesResult) (items : List SourcesCollection) : BuildTargetSourcesResult :=
  { x with items := items }

/-- `SourcesCollection::new`. bsp-types/src/bt_sources.rs:60-62. -/
def SourcesCollection.new [Ext] (target : BuildTargetIdentifier) (sources : List Sources) : SourcesCollection :=
  ⟨target, sources⟩

/-- `SourcesCollection::target`. bsp-types/src/bt_sources.rs:65-67. -/
def SourcesCollection.target [Ext] (x : SourcesCollection) : BuildTargetIdentifier :=
  x.target

/-- `SourcesCollection::set_target`. bsp-types/src/bt_sources.rs:70-72. -/
def SourcesCollection.set_target [Ext] (x : SourcesCollection) (target : BuildTargetIdentifier) : SourcesCollection :=
  { x with target := target }

/-- `SourcesCollection::sources`. bsp-types/src/bt_sources.rs:75-77. -/
def SourcesCollection.sources [Ext] (x : SourcesCollection) : List Sources :=
  x.sources

/-- `SourcesCollection::set_sources`. bsp-types/src/bt_sources.rs:80-82. -/
def SourcesCollection.set_sources [Ext] (x : SourcesCollection) (sources : List Sources) : SourcesCollection :=
  { x with sources := sources }

/-- `Sources::new`. bsp-types/src/bt_sources.rs:104-110. -/
def Sources.new [Ext] (uri : Ext.Url) (kind : SourceKind) (generated : Bool) : Sources :=
  ⟨uri, kind, generated⟩

/-- `Sources::kind`. bsp-types/src/bt_sources.rs:113-115. -/
def Sources.kind [Ext] (x : Sources) : SourceKind :=
  x.kind

/-- `Sources::set_kind`. bsp-types/src/bt_sources.rs:118-120. -/
def Sources.set_kind [Ext] (x : Sources) (kind : SourceKind) : Sources :=
  { x with kind := kind }

/-- `Sources::uri`. bsp-types/src/bt_sources.rs:123-125. -/
def Sources.uri [Ext] (x : Sources) : Ext.Url :=
  x.uri

/-- `Sources::set_uri`. bsp-types/src/bt_sources.rs:128-130. -/
def Sources.set_uri [Ext] (x : Sources) (uri : Ext.Url) : Sources :=
  { x with uri := uri }

/-- `Sources::generated`. bsp-types/src/bt_sources.rs:133-135. -/
def Sources.generated [Ext] (x : Sources) : Bool :=
  x.generated

/-- `Sources::set_generated`. bsp-types/src/bt_sources.rs:138-140. -/
def Sources.set_generated [Ext] (x : Sources) (generated : Bool) : Sources :=
  { x with generated := generated }

/-- `BuildTargetTest::new`. bsp-types/src/bt_test.rs:34-48. -/
def BuildTargetTest.new [Ext] (target : BuildTargetIdentifier) (origin_id : Option String) (arguments : Option String) (data_kind : Option String) (data : Option Value) : BuildTargetTest :=
  ⟨target, origin_id, arguments, data_kind, data⟩

/-- `BuildTargetTest::new_simple`. bsp-types/src/bt_test.rs:49-57. -/
def BuildTargetTest.new_simple [Ext] (target : BuildTargetIdentifier) : BuildTargetTest :=
  ⟨target, none, none, none, none⟩

/-- `BuildTargetTest::target`. bsp-types/src/bt_test.rs:60-62. -/
def BuildTargetTest.target [Ext] (x : BuildTargetTest) : BuildTargetIdentifier :=
  x.target

/-- `BuildTargetTest::set_target`. bsp-types/src/bt_test.rs:65-67. -/
def BuildTargetTest.set_target [Ext] (x : BuildTargetTest) (target : BuildTargetIdentifier) : BuildTargetTest :=
  { x with target := target }

/-- `BuildTargetTest::origin_id`. bsp-types/src/bt_test.rs:70-72. -/
def BuildTargetTest.origin_id [Ext] (x : BuildTargetTest) : Option String :=
  x.originId

/-- `BuildTargetTest::set_origin_id`. bsp-types/src/bt_test.rs:75-77. -/
def BuildTargetTest.set_origin_id [Ext] (x : BuildTargetTest) (origin_id : Option String) : BuildTargetTest :=
  { x with originId := origin_id }

/-- `BuildTargetTest::arguments`. bsp-types/src/bt_test.rs:80-82. -/
def BuildTargetTest.arguments [Ext] (x : BuildTargetTest) : Option String :=
  x.arguments

/-- `BuildTargetTest::set_arguments`. bsp-types/src/bt_test.rs:85-87. -/
def BuildTargetTest.set_arguments [Ext] (x : BuildTargetTest) (arguments : Option String) : BuildTargetTest :=
  { x with arguments := arguments }

/-- `BuildTargetTest::data_kind`. bsp-types/src/bt_test.rs:90-92. -/
def BuildTargetTest.data_kind [Ext] (x : BuildTargetTest) : Option String :=
  x.dataKind

/-- `BuildTargetTest::set_data_kind`. bsp-types/src/bt_test.rs:95-97. -/
def BuildTargetTest.set_data_kind [Ext] (x : BuildTargetTest) (data_kind : Option String) : BuildTargetTest :=
  { x with dataKind := data_kind }

/-- `BuildTargetTest::data`. bsp-types/src/bt_test.rs:100-102. -/
def BuildTargetTest.data [Ext] (x : BuildTargetTest) : Option Value :=
  x.data

/-- `BuildTargetTest::set_data`. bsp-types/src/bt_test.rs:105-107. -/
def BuildTargetTest.set_data [Ext] (x : BuildTargetTest) (data : Option Value) : BuildTargetTest :=
  { x with data := data }

/-- `BuildTargetTestResult::new`. bsp-types/src/bt_test.rs:132-144. -/
def BuildTargetTestResult.new (origin_id : Option String) (status_code : UInt64) (data_kind : Option String) (data : Option Value) : BuildTargetTestResult :=
  ⟨origin_id, status_code, data_kind, data⟩

/-- `BuildTargetTestResult::new_simple`. bsp-types/src/bt_test.rs:145-152. -/
def BuildTargetTestResult.new_simple (status_code : UInt64) : BuildTargetTestResult :=
  ⟨none, status_code, none, none⟩

/-- `BuildTargetTestResult::origin_id`. bsp-types/src/bt_test.rs:155-157. -/
def BuildTargetTestResult.origin_id (x : BuildTargetTestResult) : Option String :=
  x.originId

/-- `BuildTargetTestResult::status_code`. bsp-types/src/bt_test.rs:160-162. -/
def BuildTargetTestResult.status_code (x : BuildTargetTestResult) : UInt64 :=
  x.statusCode

/-- `BuildTargetTestResult::set_origin_id`. bsp-types/src/bt_test.rs:165-167. -/
def BuildTargetTestResult.set_origin_id (x : BuildTargetTestResult) (origin_id : Option String) : BuildTargetTestResult :=
  { x with originId := origin_id }

/-- `BuildTargetTestResult::set_status_code`. bsp-types/src/bt_test.rs:170-172. -/
def BuildTargetTestResult.set_status_code (x : BuildTargetTestResult) (status_code : UInt64) : BuildTargetTestResult :=
  { x with statusCode := status_code }

/-- `BuildTargetTestResult::set_data_kind`. bsp-types/src/bt_test.rs:175-177. -/
def BuildTargetTestResult.set_data_kind (x : BuildTargetTestResult) (data_kind : Option String) : BuildTargetTestResult :=
  { x with dataKind := data_kind }

/-- `BuildTargetTestResult::data_kind`. bsp-types/src/bt_test.rs:180-182. -/
def BuildTargetTestResult.data_kind (x : BuildTargetTestResult) : Option String :=
  x.dataKind

/-- `BuildTargetTestResult::set_data`. bsp-types/src/bt_test.rs:185-187. -/
def BuildTargetTestResult.set_data (x : BuildTargetTestResult) (data : Option Value) : BuildTargetTestResult :=
  { x with data := data }

/-- `BuildTargetTestResult::data`. bsp-types/src/bt_test.rs:190-192. -/
def BuildTargetTestResult.data (x : BuildTargetTestResult) : Option Value :=
  x.data

/-- `ClientCapabilities::new`. bsp-types/src/client_capabilities.rs:14-16. -/
def ClientCapabilities.new (language_ids : List String) : ClientCapabilities :=
  ⟨language_ids⟩

/-- `ClientCapabilities::set_language_ids`. bsp-types/src/client_capabilities.rs:19-21. -/
def ClientCapabilities.set_language_ids (x : ClientCapabilities) (language_ids : List String) : ClientCapabilities :=
  { x with languageIds := language_ids }

/-- `ClientCapabilities::language_ids`. bsp-types/src/client_capabilities.rs:24-26. -/
def ClientCapabilities.language_ids (x : ClientCapabilities) : List String :=
  x.languageIds

/-- `ClientCapabilities::language_ids_mut`: the object after writing `v` through the reference it returns. bsp-types/src/client_capabilities.rs:29-31. -/
def ClientCapabilities.language_ids_mut (x : ClientCapabilities) (v : List String) : ClientCapabilities :=
  { x with languageIds := v }

/-- `DebugSessionStart::new`. bsp-types/src/debug_session_start.rs:25-31. -/
def DebugSessionStart.new [Ext] (targets : List BuildTargetIdentifier) (data_kind : String) (data : Value) : DebugSessionStart :=
  ⟨targets, data_kind, data⟩

/-- `DebugSessionStart::targets`. bsp-types/src/debug_session_start.rs:34-36. -/
def DebugSessionStart.targets [Ext] (x : DebugSessionStart) : List BuildTargetIdentifier :=
  x.targets

/-- `DebugSessionStart::data_kind`. bsp-types/src/debug_session_start.rs:39-41. -/
def DebugSessionStart.data_kind [Ext] (x : DebugSessionStart) : String :=
  x.dataKind

/-- `DebugSessionStart::data`. bsp-types/src/debug_session_start.rs:44-46. -/
def DebugSessionStart.data [Ext] (x : DebugSessionStart) : Value :=
  x.data

/-- `DebugSessionStart::set_targets`. bsp-types/src/debug_session_start.rs:49-51. -/
def DebugSessionStart.set_targets [Ext] (x : DebugSessionStart) (targets : List BuildTargetIdentifier) : DebugSessionStart :=
  { x with targets := targets }

/-- `DebugSessionStart::set_data_kind`. bsp-types/src/debug_session_start.rs:54-56. -/
def DebugSessionStart.set_data_kind [Ext] (x : DebugSessionStart) (data_kind : String) : DebugSessionStart :=
  { x with dataKind := data_kind }

/-- `DebugSessionStart::set_data`. bsp-types/src/debug_session_start.rs:59-61. -/
def DebugSessionStart.set_data [Ext] (x : DebugSessionStart) (data : Value) : DebugSessionStart :=
  { x with data := data }

/-- `DebugSessionStartResult::new`. bsp-types/src/debug_session_start.rs:71-73. -/
def DebugSessionStartResult.new [Ext] (uri : Ext.Url) : DebugSessionStartResult :=
  ⟨uri⟩

/-- `InitializeBuild::new`. bsp-types/src/initialize_params.rs:42-58. -/
def InitializeBuild.new [Ext] (display_name : String) (version : String) (bsp_version : String) (root_uri : Ext.Url) (capabilities : ClientCapabilities) (data : Value) : InitializeBuild :=
  ⟨display_name, version, bsp_version, root_uri, capabilities, some data⟩

/-- `InitializeBuild::new_simple`. bsp-types/src/initialize_params.rs:60-75. -/
def InitializeBuild.new_simple [Ext] (display_name : String) (version : String) (bsp_version : String) (root_uri : Ext.Url) (capabilities : ClientCapabilities) : InitializeBuild :=
  ⟨display_name, version, bsp_version, root_uri, capabilities, none⟩

/-- `InitializeBuild::set_data`. bsp-types/src/initialize_params.rs:78-80. -/
def InitializeBuild.set_data [Ext] (x : InitializeBuild) (data : Option Value) : InitializeBuild :=
  { x with data := data }

/-- `InitializeBuild::data`. bsp-types/src/initialize_params.rs:83-85. -/
def InitializeBuild.data [Ext] (x : InitializeBuild) : Option Value :=
  x.data

/-- `InitializeBuild::capabilities`. bsp-types/src/initialize_params.rs:88-90. -/
def InitializeBuild.capabilities [Ext] (x : InitializeBuild) : ClientCapabilities :=
  x.capabilities

/-- `InitializeBuild::set_capabilities`. bsp-types/src/initialize_params.rs:93-95. -/
def InitializeBuild.set_capabilities [Ext] (x : InitializeBuild) (capabilities : ClientCapabilities) : InitializeBuild :=
  { x with capabilities := capabilities }

/-- `InitializeBuild::root_uri`. bsp-types/src/initialize_params.rs:98-100. -/
def InitializeBuild.root_uri [Ext] (x : InitializeBuild) : Ext.Url :=
  x.rootUri

/-- `InitializeBuild::set_root_uri`. bsp-types/src/initialize_params.rs:108-110. -/
def InitializeBuild.set_root_uri [Ext] (x : InitializeBuild) (root_uri : Ext.Url) : InitializeBuild :=
  { x with rootUri := root_uri }

/-- `InitializeBuild::bsp_version`. bsp-types/src/initialize_params.rs:113-115. -/
def InitializeBuild.bsp_version [Ext] (x : InitializeBuild) : String :=
  x.bspVersion

/-- `InitializeBuild::set_bsp_version`. bsp-types/src/initialize_params.rs:118-120. -/
def InitializeBuild.set_bsp_version [Ext] (x : InitializeBuild) (bsp_version : String) : InitializeBuild :=
  { x with bspVersion := bsp_version }

/-- `InitializeBuild::version`. bsp-types/src/initialize_params.rs:123-125. -/
def InitializeBuild.version [Ext] (x : InitializeBuild) : String :=
  x.version

/-- `InitializeBuild::set_version`. bsp-types/src/initialize_params.rs:128-130. -/
def InitializeBuild.set_version [Ext] (x : InitializeBuild) (version : String) : InitializeBuild :=
  { x with version := version }

/-- `InitializeBuild::display_name`. bsp-types/src/initialize_params.rs:133-135. -/
def InitializeBuild.display_name [Ext] (x : InitializeBuild) : String :=
  x.displayName

/-- `InitializeBuild::set_display_name`. bsp-types/src/initialize_params.rs:138-140. -/
def InitializeBuild.set_display_name [Ext] (x : InitializeBuild) (display_name : String) : InitializeBuild :=
  { x with displayName := display_name }

/-- `InitializeBuildResult::new`. bsp-types/src/initialize_result.rs:23-37. -/
def InitializeBuildResult.new (display_name : String) (version : String) (bsp_version : String) (capabilities : ServerCapabilities) (data : Value) : InitializeBuildResult :=
  ⟨display_name, version, bsp_version, capabilities, some data⟩

/-- `InitializeBuildResult::new_simple`. bsp-types/src/initialize_result.rs:39-52. -/
def InitializeBuildResult.new_simple (display_name : String) (version : String) (bsp_version : String) (capabilities : ServerCapabilities) : InitializeBuildResult :=
  ⟨display_name, version, bsp_version, capabilities, none⟩

/-- `InitializeBuildResult::set_bsp_version`. bsp-types/src/initialize_result.rs:55-57. -/
def InitializeBuildResult.set_bsp_version (x : InitializeBuildResult) (bsp_version : String) : InitializeBuildResult :=
  { x with bspVersion := bsp_version }

/-- `InitializeBuildResult::bsp_version`. bsp-types/src/initialize_result.rs:60-62. -/
def InitializeBuildResult.bsp_version (x : InitializeBuildResult) : String :=
  x.bspVersion

/-- `InitializeBuildResult::set_version`. bsp-types/src/initialize_result.rs:65-67. -/
def InitializeBuildResult.set_version (x : InitializeBuildResult) (version : String) : InitializeBuildResult :=
  { x with version := version }

/-- `InitializeBuildResult::version`. bsp-types/src/initialize_result.rs:70-72. -/
def InitializeBuildResult.version (x : InitializeBuildResult) : String :=
  x.version

/-- `InitializeBuildResult::set_display_name`. bsp-types/src/initialize_result.rs:75-77. -/
def InitializeBuildResult.set_display_name (x : InitializeBuildResult) (display_name : String) : InitializeBuildResult :=
  { x with displayName := display_name }

/-- `InitializeBuildResult::display_name`. bsp-types/src/initialize_result.rs:80-82. -/
def InitializeBuildResult.display_name (x : InitializeBuildResult) : String :=
  x.displayName

/-- `InitializeBuildResult::set_capabilities`. bsp-types/src/initialize_result.rs:85-87. -/
def InitializeBuildResult.set_capabilities (x : InitializeBuildResult) (capabilities : ServerCapabilities) : InitializeBuildResult :=
  { x with capabilities := capabilities }

/-- `InitializeBuildResult::capabilities`. bsp-types/src/initialize_result.rs:90-92. -/
def InitializeBuildResult.capabilities (x : InitializeBuildResult) : ServerCapabilities :=
  x.capabilities

/-- `InitializeBuildResult::set_data`. bsp-types/src/initialize_result.rs:95-97. -/
def InitializeBuildResult.set_data (x : InitializeBuildResult) (data : Option Value) : InitializeBuildResult :=
  { x with data := data }

/-- `InitializeBuildResult::data`. bsp-types/src/initialize_result.rs:100-102. -/
def InitializeBuildResult.data (x : InitializeBuildResult) : Option Value :=
  x.data

/-- `InitializeBuildResult::data_mut`: the object after writing `v` through the reference it returns. bsp-types/src/initialize_result.rs:105-107. -/
def InitializeBuildResult.data_mut (x : InitializeBuildResult) (v : Option Value) : InitializeBuildResult :=
  { x with data := v }

/-- `LogMessage::new`. bsp-types/src/log_message.rs:33-45. -/
def LogMessage.new (typ : MessageType) (msg : String) (task : Option TaskId) (orid : Option String) : LogMessage :=
  ⟨typ, task, orid, msg⟩

/-- `LogMessage::info`. bsp-types/src/log_message.rs:48-50. -/
def LogMessage.info (msg : String) (task : Option TaskId) (orid : Option String) : LogMessage :=
  LogMessage.new .info msg task orid

/-- `LogMessage::log`. bsp-types/src/log_message.rs:53-55. -/
def LogMessage.log (msg : String) (task : Option TaskId) (orid : Option String) : LogMessage :=
  LogMessage.new .log msg task orid

/-- `LogMessage::warn`. bsp-types/src/log_message.rs:58-60. -/
def LogMessage.warn (msg : String) (task : Option TaskId) (orid : Option String) : LogMessage :=
  LogMessage.new .warning msg task orid

/-- `LogMessage::error`. bsp-types/src/log_message.rs:63-65. -/
def LogMessage.error (msg : String) (task : Option TaskId) (orid : Option String) : LogMessage :=
  LogMessage.new .error msg task orid

/-- `ServerCapabilities::set_compile_provider`. bsp-types/src/server_capabilities.rs:61-63. -/
def ServerCapabilities.set_compile_provider (x : ServerCapabilities) (compile_provider : Option CompileProvider) : ServerCapabilities :=
  { x with compileProvider := compile_provider }

/-- `ServerCapabilities::compile_provider`. bsp-types/src/server_capabilities.rs:66-68. -/
def ServerCapabilities.compile_provider (x : ServerCapabilities) : Option CompileProvider :=
  x.compileProvider

/-- `ServerCapabilities::set_test_provider`. bsp-types/src/server_capabilities.rs:71-73. -/
def ServerCapabilities.set_test_provider (x : ServerCapabilities) (test_provider : Option TestProvider) : ServerCapabilities :=
  { x with testProvider := test_provider }

/-- `ServerCapabilities::test_provider`. bsp-types/src/server_capabilities.rs:76-78. -/
def ServerCapabilities.test_provider (x : ServerCapabilities) : Option TestProvider :=
  x.testProvider

/-- `ServerCapabilities::set_run_provider`. bsp-types/src/server_capabilities.rs:81-83. -/
def ServerCapabilities.set_run_provider (x : ServerCapabilities) (run_provider : Option RunProvider) : ServerCapabilities :=
  { x with runProvider := run_provider }

/-- `ServerCapabilities::run_provider`. bsp-types/src/server_capabilities.rs:86-88. -/
def ServerCapabilities.run_provider (x : ServerCapabilities) : Option RunProvider :=
  x.runProvider

/-- `ServerCapabilities::set_debug_provider`. bsp-types/src/server_capabilities.rs:91-93. -/
def ServerCapabilities.set_debug_provider (x : ServerCapabilities) (debug_provider : Option DebugProvider) : ServerCapabilities :=
  { x with debugProvider := debug_provider }

/-- `ServerCapabilities::debug_provider`. bsp-types/src/server_capabilities.rs:96-98. -/
def ServerCapabilities.debug_provider (x : ServerCapabilities) : Option DebugProvider :=
  x.debugProvider

/-- `ServerCapabilities::set_inverse_sources_provider`. bsp-types/src/server_capabilities.rs:101-103. -/
def ServerCapabilities.set_inverse_sources_provider (x : ServerCapabilities) (inverse_sources_provider : Option Bool) : ServerCapabilities :=
  { x with inverseSourcesProvider := inverse_sources_provider }

/-- `ServerCapabilities::inverse_sources_provider`. bsp-types/src/server_capabilities.rs:106-108. -/
def ServerCapabilities.inverse_sources_provider (x : ServerCapabilities) : Option Bool :=
  x.inverseSourcesProvider

/-- `ServerCapabilities::set_dependency_sources_provider`. bsp-types/src/server_capabilities.rs:111-113. -/
def ServerCapabilities.set_dependency_sources_provider (x : ServerCapabilities) (dependency_sources_provider : Option Bool) : ServerCapabilities :=
  { x with dependencySourcesProvider := dependency_sources_provider }

/-- `ServerCapabilities::dependency_sources_provider`. bsp-types/src/server_capabilities.rs:116-118. -/
def ServerCapabilities.dependency_sources_provider (x : ServerCapabilities) : Option Bool :=
  x.dependencySourcesProvider

/-- `ServerCapabilities::set_dependency_modules_provider`. bsp-types/src/server_capabilities.rs:121-123. -/
def ServerCapabilities.set_dependency_modules_provider (x : ServerCapabilities) (dependency_modules_provider : Option Bool) : ServerCapabilities :=
  { x with dependencyModulesProvider := dependency_modules_provider }

/-- `ServerCapabilities::dependency_modules_provider`. bsp-types/src/server_capabilities.rs:126-128. -/
def ServerCapabilities.dependency_modules_provider (x : ServerCapabilities) : Option Bool :=
  x.dependencyModulesProvider

/-- `ServerCapabilities::set_resources_provider`. bsp-types/src/server_capabilities.rs:131-133. -/
def ServerCapabilities.set_resources_provider (x : ServerCapabilities) (resources_provider : Option Bool) : ServerCapabilities :=
  { x with resourcesProvider := resources_provider }

/-- `ServerCapabilities::resources_provider`. bsp-types/src/server_capabilities.rs:136-138. -/
def ServerCapabilities.resources_provider (x : ServerCapabilities) : Option Bool :=
  x.resourcesProvider

/-- `ServerCapabilities::set_can_reload`. bsp-types/src/server_capabilities.rs:141-143. -/
def ServerCapabilities.set_can_reload (x : ServerCapabilities) (can_reload : Option Bool) : ServerCapabilities :=
  { x with canReload := can_reload }

/-- `ServerCapabilities::can_reload`. bsp-types/src/server_capabilities.rs:146-148. -/
def ServerCapabilities.can_reload (x : ServerCapabilities) : Option Bool :=
  x.canReload

/-- `ServerCapabilities::set_build_target_changed_provider`. bsp-types/src/server_capabilities.rs:151-156. -/
def ServerCapabilities.set_build_target_changed_provider (x : ServerCapabilities) (build_target_changed_provider : Option Bool) : ServerCapabilities :=
  { x with buildTargetChangedProvider := build_target_changed_provider }

/-- `ServerCapabilities::build_target_changed_provider`. bsp-types/src/server_capabilities.rs:159-161. -/
def ServerCapabilities.build_target_changed_provider (x : ServerCapabilities) : Option Bool :=
  x.buildTargetChangedProvider

/-- `ShowMessage::new`. bsp-types/src/show_message.rs:33-45. -/
def ShowMessage.new (typ : MessageType) (msg : String) (task : Option TaskId) (orid : Option String) : ShowMessage :=
  ⟨typ, msg, task, orid⟩

/-- `ShowMessage::info`. bsp-types/src/show_message.rs:48-50. -/
def ShowMessage.info (msg : String) (task : Option TaskId) (orid : Option String) : ShowMessage :=
  ShowMessage.new .info msg task orid

/-- `ShowMessage::log`. bsp-types/src/show_message.rs:53-55. -/
def ShowMessage.log (msg : String) (task : Option TaskId) (orid : Option String) : ShowMessage :=
  ShowMessage.new .log msg task orid

/-- `ShowMessage::warn`. bsp-types/src/show_message.rs:58-60. -/
def ShowMessage.warn (msg : String) (task : Option TaskId) (orid : Option String) : ShowMessage :=
  ShowMessage.new .warning msg task orid

/-- `ShowMessage::error`. bsp-types/src/show_message.rs:63-65. -/
def ShowMessage.error (msg : String) (task : Option TaskId) (orid : Option String) : ShowMessage :=
  ShowMessage.new .error msg task orid

/-- `TaskFinish::new`. bsp-types/src/task/finish.rs:37-42. -/
def TaskFinish.new (task_id : TaskId) : TaskFinish :=
  ⟨task_id, none, "", TaskStatus.ok, TaskDataKind.none, Value.null⟩

/-- `From<String> for TaskId`. bsp-types/src/task/id.rs:21-26. -/
def TaskId.from_string (id : String) : TaskId :=
  ⟨id, []⟩

/-- `From<&str> for TaskId`. bsp-types/src/task/id.rs:30-35. -/
def TaskId.from_str (id : String) : TaskId :=
  ⟨id, []⟩

/-- `TaskId::new`. bsp-types/src/task/id.rs:39-41. -/
def TaskId.new (id : String) (parents : List String) : TaskId :=
  ⟨id, parents⟩

/-- `TaskId::add_parent`. bsp-types/src/task/id.rs:43-45. -/
def TaskId.add_parent (x : TaskId) (value : String) : TaskId :=
  { x with parents := x.parents ++ [value] }

/-- `TaskStart::new`. bsp-types/src/task/start.rs:33-38. -/
def TaskStart.new (task_id : TaskId) : TaskStart :=
  ⟨task_id, none, "", TaskDataKind.none, Value.null⟩

/-- `BuildTarget::new`. bsp-types/src/workspace_build_targets.rs:57-75. -/
def BuildTarget.new [Ext] (id : BuildTargetIdentifier) (display_name : Option String) (base_directory : Option String) (tags : List BuildTargetTag) (capabilities : BuildTargetCapabilities) (language_ids : List String) (dependencies : List BuildTargetIdentifier) : BuildTarget :=
  ⟨id, display_name, base_directory, tags, capabilities, language_ids, dependencies⟩

/-- `BuildTarget::new_simple`. bsp-types/src/workspace_build_targets.rs:76-92. -/
def BuildTarget.new_simple [Ext] (id : BuildTargetIdentifier) (tags : List BuildTargetTag) (capabilities : BuildTargetCapabilities) (language_ids : List String) (dependencies : List BuildTargetIdentifier) : BuildTarget :=
  ⟨id, none, none, tags, capabilities, language_ids, dependencies⟩

/-- `WorkspaceBuildTargetsResult::new`. bsp-types/src/workspace_build_targets.rs:96-98. -/
def WorkspaceBuildTargetsResult.new [Ext] (targets : List BuildTarget) : WorkspaceBuildTargetsResult :=
  ⟨targets⟩

/-- `From<BuildTarget> for WorkspaceBuildTargetsResult`. bsp-types/src/workspace_build_targets.rs:102-106. -/
def WorkspaceBuildTargetsResult.from_buildTarget [Ext] (target : BuildTarget) : WorkspaceBuildTargetsResult :=
  ⟨[target]⟩

/-- `BuildTargetTag::custom`. bsp-types/src/bt_tag.rs:47-49. -/
def BuildTargetTag.custom (value : String) : BuildTargetTag := .custom value

/-- `TaskStatus::is_ok`. bsp-types/src/task/status.rs:20-22. -/
def TaskStatus.is_ok (x : TaskStatus) : Bool := x == .ok
/-- `TaskStatus::is_error`. bsp-types/src/task/status.rs:27-29. -/
def TaskStatus.is_error (x : TaskStatus) : Bool := x == .error
/-- `TaskStatus::is_cancelled`. bsp-types/src/task/status.rs:34-36. -/
def TaskStatus.is_cancelled (x : TaskStatus) : Bool := x == .cancelled
/-- `Display for TaskStatus`. bsp-types/src/task/status.rs:55-63. -/
def TaskStatus.display : TaskStatus → String
  | .ok => "Ok"
  | .error => "Error"
  | .cancelled => "Cancelled"

end Bsp.Api
