/-
The methods a `BuildServer` has without being implemented: bsp-types/src/server.rs.
-/
import Verif.Api
import Verif.Message
import Verif.Convert

namespace Bsp
namespace Server

section
variable [Ext]

/-- How a method of the trait ends: `Ok(..)` with the serialised result, or `todo!()`.  No default body returns
`Err`. server.rs:6-190. -/
inductive Out where
  | ok (result : Value)
  | panic

/-- `build_shutdown`: server.rs:39-41. `None` is serialised as null. -/
def build_shutdown : Out := .ok Value.null
/-- `workspace_bts`: server.rs:56-58. -/
def workspace_bts : Out := .ok (Value.ofJson Api.default_WorkspaceBuildTargetsResult.enc)
/-- `workspace_reload`: server.rs:67-69. -/
def workspace_reload : Out := .ok Value.null
/-- `bt_dependency_modules`: server.rs:77-83. -/
def bt_dependency_modules (_ : BuildTargetDependencyModules) : Out := .panic
/-- `debug_session_start`: server.rs:90-93. -/
def debug_session_start (_ : DebugSessionStart) : Out := .panic
/-- `bt_sources`: server.rs:102-104. -/
def bt_sources (_ : BuildTargetSources) : Out := .ok (Value.ofJson Api.default_BuildTargetSourcesResult.enc)
/-- `bt_inverse_sources`: server.rs:108-113. -/
def bt_inverse_sources (_ : TextDocumentInverseSources) : Out :=
  .ok (Value.ofJson Api.default_BuildTargetInverseSourcesResult.enc)
/-- `bt_dependency_sources`: server.rs:122-127. -/
def bt_dependency_sources (_ : BuildTargetDependencySources) : Out :=
  .ok (Value.ofJson Api.default_BuildTargetDependencySourcesResult.enc)
/-- `bt_resources`: server.rs:140-142. -/
def bt_resources (_ : BuildTargetResources) : Out :=
  .ok (Value.ofJson Api.default_BuildTargetResourcesResult.enc)
/-- `bt_run`: server.rs:149-152. -/
def bt_run (_ : BuildTargetRun) : Out := .panic
/-- `bt_compile`: server.rs:159-162. -/
def bt_compile (_ : BuildTargetCompile) : Out := .panic
/-- `bt_test`: server.rs:170-173. -/
def bt_test (_ : BuildTargetTest) : Out := .panic
/-- `bt_clean_cache`: server.rs:186-189. -/
def bt_clean_cache (_ : BuildTargetCleanCache) : Out := .panic

/-- The method invoked for a request, by the comments "Invoked when client sends server ..." (server.rs:7-176);
no code in the repository makes this dispatch (the comment at 106 names buildTarget/inverseSources, a method no message has).  `initialize` has no default; there is no method for other requests. -/
def dispatch : Request → Option Out
  | .shutdown _ => some build_shutdown
  | .workspaceBuildTargets _ => some workspace_bts
  | .workspaceReload _ => some workspace_reload
  | .buildTargetDependencyModules _ p => some (bt_dependency_modules p)
  | .debugSessionStart _ p => some (debug_session_start p)
  | .buildTargetSources _ p => some (bt_sources p)
  | .textDocumentInverseSources _ p => some (bt_inverse_sources p)
  | .buildTargetDependencySources _ p => some (bt_dependency_sources p)
  | .buildTargetResources _ p => some (bt_resources p)
  | .buildTargetRun _ p => some (bt_run p)
  | .buildTargetCompile _ p => some (bt_compile p)
  | .buildTargetTest _ p => some (bt_test p)
  | .buildTargetCleanCache _ p => some (bt_clean_cache p)
  | .initializeBuild _ _ => none
  | .custom _ _ _ => none

end
end Server
end Bsp
