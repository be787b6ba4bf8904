/-
All payload types under one index, their schema (a specification written as a table, independent of
the encoders and decoders), and the generic statements about them.
Generated by tools/gen_types.py.
-/
import Verif.Types

set_option linter.unusedSimpArgs false

namespace Bsp
open Json

/-- The names of the built-in task data kinds (specification of bsp-types/src/task/kind.rs:8-53). -/
def reservedKinds : List String :=
  ["compile-task", "compile-report", "test-task", "test-report", "test-start", "test-finish"]

theorem normData_plain {o : Option Value} (h : o ≠ some Value.null) : normData o = o := by
  cases o with
  | none => rfl
  | some v =>
    have : v.isNull = false := by
      cases hn : v.isNull with
      | false => rfl
      | true => rw [Value.isNull_iff] at hn; exact absurd (by rw [hn]) h
    simp [normData, this]

theorem TaskDataKind.norm_plain {k : TaskDataKind} (h : ∀ s ∈ reservedKinds, k ≠ .custom s) :
    k.norm = k := by
  cases k with
  | custom s =>
    have hs : s ∉ reservedKinds := fun hs => h s hs rfl
    simp [reservedKinds] at hs
    simp [norm, ofString, hs]
  | _ => rfl

theorem map_plain {f : α → α} {xs : List α} (h : ∀ x ∈ xs, f x = x) : xs.map f = xs := by
  induction xs with
  | nil => rfl
  | cons x xs ih =>
    rw [List.map_cons, h x (by simp), ih (fun y hy => h y (by simp [hy]))]

/-- Index of the payload types exported by bsp-types/src/lib.rs:1-56. -/
inductive Payload where
  | buildTargetIdentifier
  | textDocumentIdentifier
  | clientCapabilities
  | initializeBuild
  | buildTargetCleanCache
  | buildTargetDependencyModules
  | buildTargetResources
  | buildTargetSources
  | buildTargetCompile
  | buildTargetRun
  | buildTargetTest
  | buildTargetDependencySources
  | textDocumentInverseSources
  | debugSessionStart
  | taskId
  | showMessage
  | logMessage
  | position
  | range
  | codeDescription
  | location
  | diagnosticRelatedInformation
  | diagnostic
  | publishDiagnostics
  | taskStart
  | taskFinish
  | taskProgress
  | buildTargetEvent
  | buildTargetDidChange
  | compileProvider
  | testProvider
  | runProvider
  | debugProvider
  | serverCapabilities
  | initializeBuildResult
  | buildTargetCapabilities
  | buildTarget
  | workspaceBuildTargetsResult
  | debugSessionStartResult
  | sources
  | sourcesCollection
  | buildTargetSourcesResult
  | buildTargetCompileResult
  | buildTargetTestResult
  | buildTargetRunResult
  | resources
  | buildTargetResourcesResult
  | dependencyModule
  | dependencyModulesItem
  | buildTargetDependencyModulesResult
  | buildTargetCleanCacheResult
  | buildTargetInverseSourcesResult
  | dependencySourcesItem
  | buildTargetDependencySourcesResult
deriving DecidableEq, Repr

namespace Payload

/-- The Lean type modelling the Rust type (bsp-types/src/lib.rs:1-56; lines at each type in Types). -/
@[reducible] def Carrier [Ext] : Payload → Type
  | .buildTargetIdentifier => BuildTargetIdentifier
  | .textDocumentIdentifier => TextDocumentIdentifier
  | .clientCapabilities => ClientCapabilities
  | .initializeBuild => InitializeBuild
  | .buildTargetCleanCache => BuildTargetCleanCache
  | .buildTargetDependencyModules => BuildTargetDependencyModules
  | .buildTargetResources => BuildTargetResources
  | .buildTargetSources => BuildTargetSources
  | .buildTargetCompile => BuildTargetCompile
  | .buildTargetRun => BuildTargetRun
  | .buildTargetTest => BuildTargetTest
  | .buildTargetDependencySources => BuildTargetDependencySources
  | .textDocumentInverseSources => TextDocumentInverseSources
  | .debugSessionStart => DebugSessionStart
  | .taskId => TaskId
  | .showMessage => ShowMessage
  | .logMessage => LogMessage
  | .position => Position
  | .range => Range
  | .codeDescription => CodeDescription
  | .location => Location
  | .diagnosticRelatedInformation => DiagnosticRelatedInformation
  | .diagnostic => Diagnostic
  | .publishDiagnostics => PublishDiagnostics
  | .taskStart => TaskStart
  | .taskFinish => TaskFinish
  | .taskProgress => TaskProgress
  | .buildTargetEvent => BuildTargetEvent
  | .buildTargetDidChange => BuildTargetDidChange
  | .compileProvider => CompileProvider
  | .testProvider => TestProvider
  | .runProvider => RunProvider
  | .debugProvider => DebugProvider
  | .serverCapabilities => ServerCapabilities
  | .initializeBuildResult => InitializeBuildResult
  | .buildTargetCapabilities => BuildTargetCapabilities
  | .buildTarget => BuildTarget
  | .workspaceBuildTargetsResult => WorkspaceBuildTargetsResult
  | .debugSessionStartResult => DebugSessionStartResult
  | .sources => Sources
  | .sourcesCollection => SourcesCollection
  | .buildTargetSourcesResult => BuildTargetSourcesResult
  | .buildTargetCompileResult => BuildTargetCompileResult
  | .buildTargetTestResult => BuildTargetTestResult
  | .buildTargetRunResult => BuildTargetRunResult
  | .resources => Resources
  | .buildTargetResourcesResult => BuildTargetResourcesResult
  | .dependencyModule => DependencyModule
  | .dependencyModulesItem => DependencyModulesItem
  | .buildTargetDependencyModulesResult => BuildTargetDependencyModulesResult
  | .buildTargetCleanCacheResult => BuildTargetCleanCacheResult
  | .buildTargetInverseSourcesResult => BuildTargetInverseSourcesResult
  | .dependencySourcesItem => DependencySourcesItem
  | .buildTargetDependencySourcesResult => BuildTargetDependencySourcesResult

/-- Its serialiser (bsp-types/src/lib.rs:1-56; lines at each type in Types). -/
def enc [Ext] : (p : Payload) → p.Carrier → Json
  | .buildTargetIdentifier, x => BuildTargetIdentifier.enc x
  | .textDocumentIdentifier, x => TextDocumentIdentifier.enc x
  | .clientCapabilities, x => ClientCapabilities.enc x
  | .initializeBuild, x => InitializeBuild.enc x
  | .buildTargetCleanCache, x => BuildTargetCleanCache.enc x
  | .buildTargetDependencyModules, x => BuildTargetDependencyModules.enc x
  | .buildTargetResources, x => BuildTargetResources.enc x
  | .buildTargetSources, x => BuildTargetSources.enc x
  | .buildTargetCompile, x => BuildTargetCompile.enc x
  | .buildTargetRun, x => BuildTargetRun.enc x
  | .buildTargetTest, x => BuildTargetTest.enc x
  | .buildTargetDependencySources, x => BuildTargetDependencySources.enc x
  | .textDocumentInverseSources, x => TextDocumentInverseSources.enc x
  | .debugSessionStart, x => DebugSessionStart.enc x
  | .taskId, x => TaskId.enc x
  | .showMessage, x => ShowMessage.enc x
  | .logMessage, x => LogMessage.enc x
  | .position, x => Position.enc x
  | .range, x => Range.enc x
  | .codeDescription, x => CodeDescription.enc x
  | .location, x => Location.enc x
  | .diagnosticRelatedInformation, x => DiagnosticRelatedInformation.enc x
  | .diagnostic, x => Diagnostic.enc x
  | .publishDiagnostics, x => PublishDiagnostics.enc x
  | .taskStart, x => TaskStart.enc x
  | .taskFinish, x => TaskFinish.enc x
  | .taskProgress, x => TaskProgress.enc x
  | .buildTargetEvent, x => BuildTargetEvent.enc x
  | .buildTargetDidChange, x => BuildTargetDidChange.enc x
  | .compileProvider, x => CompileProvider.enc x
  | .testProvider, x => TestProvider.enc x
  | .runProvider, x => RunProvider.enc x
  | .debugProvider, x => DebugProvider.enc x
  | .serverCapabilities, x => ServerCapabilities.enc x
  | .initializeBuildResult, x => InitializeBuildResult.enc x
  | .buildTargetCapabilities, x => BuildTargetCapabilities.enc x
  | .buildTarget, x => BuildTarget.enc x
  | .workspaceBuildTargetsResult, x => WorkspaceBuildTargetsResult.enc x
  | .debugSessionStartResult, x => DebugSessionStartResult.enc x
  | .sources, x => Sources.enc x
  | .sourcesCollection, x => SourcesCollection.enc x
  | .buildTargetSourcesResult, x => BuildTargetSourcesResult.enc x
  | .buildTargetCompileResult, x => BuildTargetCompileResult.enc x
  | .buildTargetTestResult, x => BuildTargetTestResult.enc x
  | .buildTargetRunResult, x => BuildTargetRunResult.enc x
  | .resources, x => Resources.enc x
  | .buildTargetResourcesResult, x => BuildTargetResourcesResult.enc x
  | .dependencyModule, x => DependencyModule.enc x
  | .dependencyModulesItem, x => DependencyModulesItem.enc x
  | .buildTargetDependencyModulesResult, x => BuildTargetDependencyModulesResult.enc x
  | .buildTargetCleanCacheResult, x => BuildTargetCleanCacheResult.enc x
  | .buildTargetInverseSourcesResult, x => BuildTargetInverseSourcesResult.enc x
  | .dependencySourcesItem, x => DependencySourcesItem.enc x
  | .buildTargetDependencySourcesResult, x => BuildTargetDependencySourcesResult.enc x

/-- Its deserialiser (bsp-types/src/lib.rs:1-56; lines at each type in Types). -/
def dec [Ext] : (p : Payload) → Json → Option p.Carrier
  | .buildTargetIdentifier, j => BuildTargetIdentifier.dec j
  | .textDocumentIdentifier, j => TextDocumentIdentifier.dec j
  | .clientCapabilities, j => ClientCapabilities.dec j
  | .initializeBuild, j => InitializeBuild.dec j
  | .buildTargetCleanCache, j => BuildTargetCleanCache.dec j
  | .buildTargetDependencyModules, j => BuildTargetDependencyModules.dec j
  | .buildTargetResources, j => BuildTargetResources.dec j
  | .buildTargetSources, j => BuildTargetSources.dec j
  | .buildTargetCompile, j => BuildTargetCompile.dec j
  | .buildTargetRun, j => BuildTargetRun.dec j
  | .buildTargetTest, j => BuildTargetTest.dec j
  | .buildTargetDependencySources, j => BuildTargetDependencySources.dec j
  | .textDocumentInverseSources, j => TextDocumentInverseSources.dec j
  | .debugSessionStart, j => DebugSessionStart.dec j
  | .taskId, j => TaskId.dec j
  | .showMessage, j => ShowMessage.dec j
  | .logMessage, j => LogMessage.dec j
  | .position, j => Position.dec j
  | .range, j => Range.dec j
  | .codeDescription, j => CodeDescription.dec j
  | .location, j => Location.dec j
  | .diagnosticRelatedInformation, j => DiagnosticRelatedInformation.dec j
  | .diagnostic, j => Diagnostic.dec j
  | .publishDiagnostics, j => PublishDiagnostics.dec j
  | .taskStart, j => TaskStart.dec j
  | .taskFinish, j => TaskFinish.dec j
  | .taskProgress, j => TaskProgress.dec j
  | .buildTargetEvent, j => BuildTargetEvent.dec j
  | .buildTargetDidChange, j => BuildTargetDidChange.dec j
  | .compileProvider, j => CompileProvider.dec j
  | .testProvider, j => TestProvider.dec j
  | .runProvider, j => RunProvider.dec j
  | .debugProvider, j => DebugProvider.dec j
  | .serverCapabilities, j => ServerCapabilities.dec j
  | .initializeBuildResult, j => InitializeBuildResult.dec j
  | .buildTargetCapabilities, j => BuildTargetCapabilities.dec j
  | .buildTarget, j => BuildTarget.dec j
  | .workspaceBuildTargetsResult, j => WorkspaceBuildTargetsResult.dec j
  | .debugSessionStartResult, j => DebugSessionStartResult.dec j
  | .sources, j => Sources.dec j
  | .sourcesCollection, j => SourcesCollection.dec j
  | .buildTargetSourcesResult, j => BuildTargetSourcesResult.dec j
  | .buildTargetCompileResult, j => BuildTargetCompileResult.dec j
  | .buildTargetTestResult, j => BuildTargetTestResult.dec j
  | .buildTargetRunResult, j => BuildTargetRunResult.dec j
  | .resources, j => Resources.dec j
  | .buildTargetResourcesResult, j => BuildTargetResourcesResult.dec j
  | .dependencyModule, j => DependencyModule.dec j
  | .dependencyModulesItem, j => DependencyModulesItem.dec j
  | .buildTargetDependencyModulesResult, j => BuildTargetDependencyModulesResult.dec j
  | .buildTargetCleanCacheResult, j => BuildTargetCleanCacheResult.dec j
  | .buildTargetInverseSourcesResult, j => BuildTargetInverseSourcesResult.dec j
  | .dependencySourcesItem, j => DependencySourcesItem.dec j
  | .buildTargetDependencySourcesResult, j => BuildTargetDependencySourcesResult.dec j

/-- What is left after the wire: specification of the types of bsp-types/src/lib.rs:1-56. -/
def norm [Ext] : (p : Payload) → p.Carrier → p.Carrier
  | .buildTargetIdentifier, x => x
  | .textDocumentIdentifier, x => x
  | .clientCapabilities, x => x
  | .initializeBuild, x => InitializeBuild.norm x
  | .buildTargetCleanCache, x => x
  | .buildTargetDependencyModules, x => x
  | .buildTargetResources, x => x
  | .buildTargetSources, x => x
  | .buildTargetCompile, x => x
  | .buildTargetRun, x => BuildTargetRun.norm x
  | .buildTargetTest, x => BuildTargetTest.norm x
  | .buildTargetDependencySources, x => x
  | .textDocumentInverseSources, x => x
  | .debugSessionStart, x => x
  | .taskId, x => x
  | .showMessage, x => x
  | .logMessage, x => x
  | .position, x => x
  | .range, x => x
  | .codeDescription, x => x
  | .location, x => x
  | .diagnosticRelatedInformation, x => x
  | .diagnostic, x => Diagnostic.norm x
  | .publishDiagnostics, x => PublishDiagnostics.norm x
  | .taskStart, x => TaskStart.norm x
  | .taskFinish, x => TaskFinish.norm x
  | .taskProgress, x => TaskProgress.norm x
  | .buildTargetEvent, x => BuildTargetEvent.norm x
  | .buildTargetDidChange, x => BuildTargetDidChange.norm x
  | .compileProvider, x => x
  | .testProvider, x => x
  | .runProvider, x => x
  | .debugProvider, x => x
  | .serverCapabilities, x => x
  | .initializeBuildResult, x => InitializeBuildResult.norm x
  | .buildTargetCapabilities, x => x
  | .buildTarget, x => x
  | .workspaceBuildTargetsResult, x => x
  | .debugSessionStartResult, x => x
  | .sources, x => x
  | .sourcesCollection, x => x
  | .buildTargetSourcesResult, x => x
  | .buildTargetCompileResult, x => BuildTargetCompileResult.norm x
  | .buildTargetTestResult, x => BuildTargetTestResult.norm x
  | .buildTargetRunResult, x => x
  | .resources, x => x
  | .buildTargetResourcesResult, x => x
  | .dependencyModule, x => DependencyModule.norm x
  | .dependencyModulesItem, x => DependencyModulesItem.norm x
  | .buildTargetDependencyModulesResult, x => BuildTargetDependencyModulesResult.norm x
  | .buildTargetCleanCacheResult, x => x
  | .buildTargetInverseSourcesResult, x => x
  | .dependencySourcesItem, x => x
  | .buildTargetDependencySourcesResult, x => x

/-- When a member is left out of the encoding: specification of the `skip_serializing_if` of the types
of bsp-types/src/lib.rs:1-56. -/
inductive Omit where
  /-- never -/
  | never
  /-- when its value would be this one -/
  | whenEq (j : Json)
  /-- when the optional JSON datum is absent (a present null is written) -/
  | absentData

/-- Specification of one member of the types of bsp-types/src/lib.rs:1-56. -/
structure FieldSpec where
  /-- wire name -/
  name : String
  /-- `none`: required; `some d`: when absent, the same as if it were `d` -/
  absent : Option Json
  /-- when it is left out -/
  skip : Omit

/-- The schema of every payload type: what the doc comments and serde attributes promise
(bsp-types/src/lib.rs:1-56 and the files it names). -/
def schema : Payload → List FieldSpec
  | .buildTargetIdentifier => [
      ⟨"uri", none, .never⟩]
  | .textDocumentIdentifier => [
      ⟨"uri", none, .never⟩]
  | .clientCapabilities => [
      ⟨"languageIds", none, .never⟩]
  | .initializeBuild => [
      ⟨"displayName", none, .never⟩,
      ⟨"version", some (.str ""), .whenEq (.str "")⟩,
      ⟨"bspVersion", some (.str ""), .whenEq (.str "")⟩,
      ⟨"rootUri", none, .never⟩,
      ⟨"capabilities", some (.obj [("languageIds", .arr [])]), .never⟩,
      ⟨"data", some (.null), .absentData⟩]
  | .buildTargetCleanCache => [
      ⟨"targets", none, .never⟩]
  | .buildTargetDependencyModules => [
      ⟨"targets", none, .never⟩]
  | .buildTargetResources => [
      ⟨"targets", none, .never⟩]
  | .buildTargetSources => [
      ⟨"targets", none, .never⟩]
  | .buildTargetCompile => [
      ⟨"target", none, .never⟩,
      ⟨"originId", some (.null), .whenEq (.null)⟩,
      ⟨"arguments", some (.null), .whenEq (.null)⟩]
  | .buildTargetRun => [
      ⟨"target", none, .never⟩,
      ⟨"originId", some (.null), .whenEq (.null)⟩,
      ⟨"arguments", some (.null), .whenEq (.null)⟩,
      ⟨"dataKind", some (.null), .whenEq (.null)⟩,
      ⟨"data", some (.null), .absentData⟩]
  | .buildTargetTest => [
      ⟨"target", none, .never⟩,
      ⟨"originId", some (.null), .whenEq (.null)⟩,
      ⟨"arguments", some (.null), .whenEq (.null)⟩,
      ⟨"dataKind", some (.null), .whenEq (.null)⟩,
      ⟨"data", some (.null), .absentData⟩]
  | .buildTargetDependencySources => [
      ⟨"textDocument", none, .never⟩]
  | .textDocumentInverseSources => [
      ⟨"textDocument", none, .never⟩]
  | .debugSessionStart => [
      ⟨"targets", some (.arr []), .never⟩,
      ⟨"dataKind", some (.str ""), .never⟩,
      ⟨"data", some (.null), .whenEq (.null)⟩]
  | .taskId => [
      ⟨"id", some (.str ""), .never⟩,
      ⟨"parents", some (.arr []), .whenEq (.arr [])⟩]
  | .showMessage => [
      ⟨"type", none, .never⟩,
      ⟨"message", none, .never⟩,
      ⟨"task", some (.null), .whenEq (.null)⟩,
      ⟨"originId", some (.null), .whenEq (.null)⟩]
  | .logMessage => [
      ⟨"type", none, .never⟩,
      ⟨"task", some (.null), .whenEq (.null)⟩,
      ⟨"originId", some (.null), .whenEq (.null)⟩,
      ⟨"message", none, .never⟩]
  | .position => [
      ⟨"line", none, .never⟩,
      ⟨"character", none, .never⟩]
  | .range => [
      ⟨"start", none, .never⟩,
      ⟨"end", none, .never⟩]
  | .codeDescription => [
      ⟨"href", none, .never⟩]
  | .location => [
      ⟨"uri", none, .never⟩,
      ⟨"range", none, .never⟩]
  | .diagnosticRelatedInformation => [
      ⟨"location", none, .never⟩,
      ⟨"message", none, .never⟩]
  | .diagnostic => [
      ⟨"range", none, .never⟩,
      ⟨"severity", some (.null), .whenEq (.null)⟩,
      ⟨"code", some (.null), .whenEq (.null)⟩,
      ⟨"codeDescription", some (.null), .whenEq (.null)⟩,
      ⟨"source", some (.null), .whenEq (.null)⟩,
      ⟨"message", none, .never⟩,
      ⟨"relatedInformation", some (.null), .whenEq (.null)⟩,
      ⟨"tags", some (.null), .whenEq (.null)⟩,
      ⟨"data", some (.null), .absentData⟩]
  | .publishDiagnostics => [
      ⟨"textDocument", none, .never⟩,
      ⟨"buildTarget", none, .never⟩,
      ⟨"originId", some (.null), .never⟩,
      ⟨"diagnostics", none, .never⟩,
      ⟨"reset", none, .never⟩]
  | .taskStart => [
      ⟨"taskId", some (.obj []), .never⟩,
      ⟨"eventTime", some (.null), .whenEq (.null)⟩,
      ⟨"message", some (.str ""), .whenEq (.str "")⟩,
      ⟨"dataKind", some (.null), .whenEq (.null)⟩,
      ⟨"data", some (.null), .whenEq (.null)⟩]
  | .taskFinish => [
      ⟨"taskId", some (.obj []), .never⟩,
      ⟨"eventTime", some (.null), .whenEq (.null)⟩,
      ⟨"message", some (.str ""), .whenEq (.str "")⟩,
      ⟨"status", some (.int 1), .never⟩,
      ⟨"dataKind", some (.null), .whenEq (.null)⟩,
      ⟨"data", some (.null), .whenEq (.null)⟩]
  | .taskProgress => [
      ⟨"taskId", some (.obj []), .never⟩,
      ⟨"eventTime", some (.null), .whenEq (.null)⟩,
      ⟨"message", some (.str ""), .whenEq (.str "")⟩,
      ⟨"total", some (.null), .never⟩,
      ⟨"progress", some (.null), .never⟩,
      ⟨"unit", some (.str ""), .whenEq (.str "")⟩,
      ⟨"dataKind", some (.null), .whenEq (.null)⟩,
      ⟨"data", some (.null), .whenEq (.null)⟩]
  | .buildTargetEvent => [
      ⟨"target", none, .never⟩,
      ⟨"kind", some (.null), .whenEq (.null)⟩,
      ⟨"data", some (.null), .absentData⟩]
  | .buildTargetDidChange => [
      ⟨"changes", none, .never⟩]
  | .compileProvider => [
      ⟨"languageIds", none, .never⟩]
  | .testProvider => [
      ⟨"languageIds", none, .never⟩]
  | .runProvider => [
      ⟨"languageIds", none, .never⟩]
  | .debugProvider => [
      ⟨"languageIds", none, .never⟩]
  | .serverCapabilities => [
      ⟨"compileProvider", some (.null), .whenEq (.null)⟩,
      ⟨"testProvider", some (.null), .whenEq (.null)⟩,
      ⟨"runProvider", some (.null), .whenEq (.null)⟩,
      ⟨"debugProvider", some (.null), .whenEq (.null)⟩,
      ⟨"inverseSourcesProvider", some (.null), .whenEq (.null)⟩,
      ⟨"dependencySourcesProvider", some (.null), .whenEq (.null)⟩,
      ⟨"dependencyModulesProvider", some (.null), .whenEq (.null)⟩,
      ⟨"resourcesProvider", some (.null), .whenEq (.null)⟩,
      ⟨"canReload", some (.null), .whenEq (.null)⟩,
      ⟨"buildTargetChangedProvider", some (.null), .whenEq (.null)⟩]
  | .initializeBuildResult => [
      ⟨"displayName", none, .never⟩,
      ⟨"version", none, .never⟩,
      ⟨"bspVersion", none, .never⟩,
      ⟨"capabilities", none, .never⟩,
      ⟨"data", some (.null), .absentData⟩]
  | .buildTargetCapabilities => [
      ⟨"canCompile", none, .never⟩,
      ⟨"canTest", none, .never⟩,
      ⟨"canRun", none, .never⟩,
      ⟨"canDebug", none, .never⟩]
  | .buildTarget => [
      ⟨"id", none, .never⟩,
      ⟨"displayName", some (.null), .whenEq (.null)⟩,
      ⟨"baseDirectory", some (.null), .whenEq (.null)⟩,
      ⟨"tags", none, .never⟩,
      ⟨"capabilities", none, .never⟩,
      ⟨"languageIds", none, .never⟩,
      ⟨"dependencies", none, .never⟩]
  | .workspaceBuildTargetsResult => [
      ⟨"targets", none, .never⟩]
  | .debugSessionStartResult => [
      ⟨"uri", none, .never⟩]
  | .sources => [
      ⟨"uri", none, .never⟩,
      ⟨"kind", none, .never⟩,
      ⟨"generated", none, .never⟩]
  | .sourcesCollection => [
      ⟨"target", none, .never⟩,
      ⟨"sources", none, .never⟩]
  | .buildTargetSourcesResult => [
      ⟨"items", none, .never⟩]
  | .buildTargetCompileResult => [
      ⟨"originId", some (.null), .whenEq (.null)⟩,
      ⟨"statusCode", none, .never⟩,
      ⟨"dataKind", some (.null), .whenEq (.null)⟩,
      ⟨"data", some (.null), .absentData⟩]
  | .buildTargetTestResult => [
      ⟨"originId", some (.null), .whenEq (.null)⟩,
      ⟨"statusCode", none, .never⟩,
      ⟨"dataKind", some (.null), .whenEq (.null)⟩,
      ⟨"data", some (.null), .absentData⟩]
  | .buildTargetRunResult => [
      ⟨"originId", some (.null), .whenEq (.null)⟩,
      ⟨"statusCode", none, .never⟩]
  | .resources => [
      ⟨"target", none, .never⟩,
      ⟨"resources", none, .never⟩]
  | .buildTargetResourcesResult => [
      ⟨"items", none, .never⟩]
  | .dependencyModule => [
      ⟨"name", none, .never⟩,
      ⟨"version", none, .never⟩,
      ⟨"dataKind", some (.null), .never⟩,
      ⟨"data", some (.null), .never⟩]
  | .dependencyModulesItem => [
      ⟨"target", none, .never⟩,
      ⟨"modules", none, .never⟩]
  | .buildTargetDependencyModulesResult => [
      ⟨"items", none, .never⟩]
  | .buildTargetCleanCacheResult => [
      ⟨"message", some (.null), .whenEq (.null)⟩,
      ⟨"cleaned", none, .never⟩]
  | .buildTargetInverseSourcesResult => [
      ⟨"targets", none, .never⟩]
  | .dependencySourcesItem => [
      ⟨"target", none, .never⟩,
      ⟨"sources", none, .never⟩]
  | .buildTargetDependencySourcesResult => [
      ⟨"items", none, .never⟩]

/-- Wire names of a payload type of bsp-types/src/lib.rs:1-56, in order. -/
def names (p : Payload) : List String := p.schema.map (·.name)

/-- Every payload value is decoded from its encoding (converted to a `Value`) to itself,
up to `norm`. -/
theorem dec_enc [LawfulExt] (p : Payload) (x : p.Carrier) :
    p.dec (canon (p.enc x)) = some (p.norm x) := by
  cases p
  · exact BuildTargetIdentifier.dec_enc x
  · exact TextDocumentIdentifier.dec_enc x
  · exact ClientCapabilities.dec_enc x
  · exact InitializeBuild.dec_enc x
  · exact BuildTargetCleanCache.dec_enc x
  · exact BuildTargetDependencyModules.dec_enc x
  · exact BuildTargetResources.dec_enc x
  · exact BuildTargetSources.dec_enc x
  · exact BuildTargetCompile.dec_enc x
  · exact BuildTargetRun.dec_enc x
  · exact BuildTargetTest.dec_enc x
  · exact BuildTargetDependencySources.dec_enc x
  · exact TextDocumentInverseSources.dec_enc x
  · exact DebugSessionStart.dec_enc x
  · exact TaskId.dec_enc x
  · exact ShowMessage.dec_enc x
  · exact LogMessage.dec_enc x
  · exact Position.dec_enc x
  · exact Range.dec_enc x
  · exact CodeDescription.dec_enc x
  · exact Location.dec_enc x
  · exact DiagnosticRelatedInformation.dec_enc x
  · exact Diagnostic.dec_enc x
  · exact PublishDiagnostics.dec_enc x
  · exact TaskStart.dec_enc x
  · exact TaskFinish.dec_enc x
  · exact TaskProgress.dec_enc x
  · exact BuildTargetEvent.dec_enc x
  · exact BuildTargetDidChange.dec_enc x
  · exact CompileProvider.dec_enc x
  · exact TestProvider.dec_enc x
  · exact RunProvider.dec_enc x
  · exact DebugProvider.dec_enc x
  · exact ServerCapabilities.dec_enc x
  · exact InitializeBuildResult.dec_enc x
  · exact BuildTargetCapabilities.dec_enc x
  · exact BuildTarget.dec_enc x
  · exact WorkspaceBuildTargetsResult.dec_enc x
  · exact DebugSessionStartResult.dec_enc x
  · exact Sources.dec_enc x
  · exact SourcesCollection.dec_enc x
  · exact BuildTargetSourcesResult.dec_enc x
  · exact BuildTargetCompileResult.dec_enc x
  · exact BuildTargetTestResult.dec_enc x
  · exact BuildTargetRunResult.dec_enc x
  · exact Resources.dec_enc x
  · exact BuildTargetResourcesResult.dec_enc x
  · exact DependencyModule.dec_enc x
  · exact DependencyModulesItem.dec_enc x
  · exact BuildTargetDependencyModulesResult.dec_enc x
  · exact BuildTargetCleanCacheResult.dec_enc x
  · exact BuildTargetInverseSourcesResult.dec_enc x
  · exact DependencySourcesItem.dec_enc x
  · exact BuildTargetDependencySourcesResult.dec_enc x

/-- Only the members named in the schema matter, and not their order relative to others. -/
theorem dec_congr [Ext] (p : Payload) {a b : Members} (h : SameOn p.names a b) :
    p.dec (.obj a) = p.dec (.obj b) := by
  cases p
  · exact BuildTargetIdentifier.dec_congr h
  · exact TextDocumentIdentifier.dec_congr h
  · exact ClientCapabilities.dec_congr h
  · exact InitializeBuild.dec_congr h
  · exact BuildTargetCleanCache.dec_congr h
  · exact BuildTargetDependencyModules.dec_congr h
  · exact BuildTargetResources.dec_congr h
  · exact BuildTargetSources.dec_congr h
  · exact BuildTargetCompile.dec_congr h
  · exact BuildTargetRun.dec_congr h
  · exact BuildTargetTest.dec_congr h
  · exact BuildTargetDependencySources.dec_congr h
  · exact TextDocumentInverseSources.dec_congr h
  · exact DebugSessionStart.dec_congr h
  · exact TaskId.dec_congr h
  · exact ShowMessage.dec_congr h
  · exact LogMessage.dec_congr h
  · exact Position.dec_congr h
  · exact Range.dec_congr h
  · exact CodeDescription.dec_congr h
  · exact Location.dec_congr h
  · exact DiagnosticRelatedInformation.dec_congr h
  · exact Diagnostic.dec_congr h
  · exact PublishDiagnostics.dec_congr h
  · exact TaskStart.dec_congr h
  · exact TaskFinish.dec_congr h
  · exact TaskProgress.dec_congr h
  · exact BuildTargetEvent.dec_congr h
  · exact BuildTargetDidChange.dec_congr h
  · exact CompileProvider.dec_congr h
  · exact TestProvider.dec_congr h
  · exact RunProvider.dec_congr h
  · exact DebugProvider.dec_congr h
  · exact ServerCapabilities.dec_congr h
  · exact InitializeBuildResult.dec_congr h
  · exact BuildTargetCapabilities.dec_congr h
  · exact BuildTarget.dec_congr h
  · exact WorkspaceBuildTargetsResult.dec_congr h
  · exact DebugSessionStartResult.dec_congr h
  · exact Sources.dec_congr h
  · exact SourcesCollection.dec_congr h
  · exact BuildTargetSourcesResult.dec_congr h
  · exact BuildTargetCompileResult.dec_congr h
  · exact BuildTargetTestResult.dec_congr h
  · exact BuildTargetRunResult.dec_congr h
  · exact Resources.dec_congr h
  · exact BuildTargetResourcesResult.dec_congr h
  · exact DependencyModule.dec_congr h
  · exact DependencyModulesItem.dec_congr h
  · exact BuildTargetDependencyModulesResult.dec_congr h
  · exact BuildTargetCleanCacheResult.dec_congr h
  · exact BuildTargetInverseSourcesResult.dec_congr h
  · exact DependencySourcesItem.dec_congr h
  · exact BuildTargetDependencySourcesResult.dec_congr h

/-- A known member that occurs twice is rejected. -/
theorem dec_dup [Ext] (p : Payload) {ms : Members} (h : dupKnown p.names ms = true) :
    p.dec (.obj ms) = none := by
  cases p <;> (simp only [names, schema, List.map_cons, List.map_nil] at h)
  · simp only [dec, BuildTargetIdentifier.dec, structSrc, BuildTargetIdentifier.fields, h]; rfl
  · simp only [dec, TextDocumentIdentifier.dec, structSrc, TextDocumentIdentifier.fields, h]; rfl
  · simp only [dec, ClientCapabilities.dec, structSrc, ClientCapabilities.fields, h]; rfl
  · simp only [dec, InitializeBuild.dec, structSrc, InitializeBuild.fields, h]; rfl
  · simp only [dec, BuildTargetCleanCache.dec, structSrc, BuildTargetCleanCache.fields, h]; rfl
  · simp only [dec, BuildTargetDependencyModules.dec, structSrc, BuildTargetDependencyModules.fields, h]; rfl
  · simp only [dec, BuildTargetResources.dec, structSrc, BuildTargetResources.fields, h]; rfl
  · simp only [dec, BuildTargetSources.dec, structSrc, BuildTargetSources.fields, h]; rfl
  · simp only [dec, BuildTargetCompile.dec, structSrc, BuildTargetCompile.fields, h]; rfl
  · simp only [dec, BuildTargetRun.dec, structSrc, BuildTargetRun.fields, h]; rfl
  · simp only [dec, BuildTargetTest.dec, structSrc, BuildTargetTest.fields, h]; rfl
  · simp only [dec, BuildTargetDependencySources.dec, structSrc, BuildTargetDependencySources.fields, h]; rfl
  · simp only [dec, TextDocumentInverseSources.dec, structSrc, TextDocumentInverseSources.fields, h]; rfl
  · simp only [dec, DebugSessionStart.dec, structSrc, DebugSessionStart.fields, h]; rfl
  · simp only [dec, TaskId.dec, structSrc, TaskId.fields, h]; rfl
  · simp only [dec, ShowMessage.dec, structSrc, ShowMessage.fields, h]; rfl
  · simp only [dec, LogMessage.dec, structSrc, LogMessage.fields, h]; rfl
  · simp only [dec, Position.dec, structSrc, Position.fields, h]; rfl
  · simp only [dec, Range.dec, structSrc, Range.fields, h]; rfl
  · simp only [dec, CodeDescription.dec, structSrc, CodeDescription.fields, h]; rfl
  · simp only [dec, Location.dec, structSrc, Location.fields, h]; rfl
  · simp only [dec, DiagnosticRelatedInformation.dec, structSrc, DiagnosticRelatedInformation.fields, h]; rfl
  · simp only [dec, Diagnostic.dec, structSrc, Diagnostic.fields, h]; rfl
  · simp only [dec, PublishDiagnostics.dec, structSrc, PublishDiagnostics.fields, h]; rfl
  · simp only [dec, TaskStart.dec, structSrc, TaskStart.fields, h]; rfl
  · simp only [dec, TaskFinish.dec, structSrc, TaskFinish.fields, h]; rfl
  · simp only [dec, TaskProgress.dec, structSrc, TaskProgress.fields, h]; rfl
  · simp only [dec, BuildTargetEvent.dec, structSrc, BuildTargetEvent.fields, h]; rfl
  · simp only [dec, BuildTargetDidChange.dec, structSrc, BuildTargetDidChange.fields, h]; rfl
  · simp only [dec, CompileProvider.dec, structSrc, CompileProvider.fields, h]; rfl
  · simp only [dec, TestProvider.dec, structSrc, TestProvider.fields, h]; rfl
  · simp only [dec, RunProvider.dec, structSrc, RunProvider.fields, h]; rfl
  · simp only [dec, DebugProvider.dec, structSrc, DebugProvider.fields, h]; rfl
  · simp only [dec, ServerCapabilities.dec, structSrc, ServerCapabilities.fields, h]; rfl
  · simp only [dec, InitializeBuildResult.dec, structSrc, InitializeBuildResult.fields, h]; rfl
  · simp only [dec, BuildTargetCapabilities.dec, structSrc, BuildTargetCapabilities.fields, h]; rfl
  · simp only [dec, BuildTarget.dec, structSrc, BuildTarget.fields, h]; rfl
  · simp only [dec, WorkspaceBuildTargetsResult.dec, structSrc, WorkspaceBuildTargetsResult.fields, h]; rfl
  · simp only [dec, DebugSessionStartResult.dec, structSrc, DebugSessionStartResult.fields, h]; rfl
  · simp only [dec, Sources.dec, structSrc, Sources.fields, h]; rfl
  · simp only [dec, SourcesCollection.dec, structSrc, SourcesCollection.fields, h]; rfl
  · simp only [dec, BuildTargetSourcesResult.dec, structSrc, BuildTargetSourcesResult.fields, h]; rfl
  · simp only [dec, BuildTargetCompileResult.dec, structSrc, BuildTargetCompileResult.fields, h]; rfl
  · simp only [dec, BuildTargetTestResult.dec, structSrc, BuildTargetTestResult.fields, h]; rfl
  · simp only [dec, BuildTargetRunResult.dec, structSrc, BuildTargetRunResult.fields, h]; rfl
  · simp only [dec, Resources.dec, structSrc, Resources.fields, h]; rfl
  · simp only [dec, BuildTargetResourcesResult.dec, structSrc, BuildTargetResourcesResult.fields, h]; rfl
  · simp only [dec, DependencyModule.dec, structSrc, DependencyModule.fields, h]; rfl
  · simp only [dec, DependencyModulesItem.dec, structSrc, DependencyModulesItem.fields, h]; rfl
  · simp only [dec, BuildTargetDependencyModulesResult.dec, structSrc, BuildTargetDependencyModulesResult.fields, h]; rfl
  · simp only [dec, BuildTargetCleanCacheResult.dec, structSrc, BuildTargetCleanCacheResult.fields, h]; rfl
  · simp only [dec, BuildTargetInverseSourcesResult.dec, structSrc, BuildTargetInverseSourcesResult.fields, h]; rfl
  · simp only [dec, DependencySourcesItem.dec, structSrc, DependencySourcesItem.fields, h]; rfl
  · simp only [dec, BuildTargetDependencySourcesResult.dec, structSrc, BuildTargetDependencySourcesResult.fields, h]; rfl

/-- A required member is required. -/
theorem dec_missing [Ext] (p : Payload) (f : FieldSpec) (hf : f ∈ p.schema) (hr : f.absent = none)
    {ms : Members} (h : List.lookup f.name ms = none) : p.dec (.obj ms) = none := by
  cases p <;> simp only [schema, List.mem_cons, List.not_mem_nil, or_false] at hf
  · rcases hf with rfl
    · exact BuildTargetIdentifier.dec_missing_uri h
  · rcases hf with rfl
    · exact TextDocumentIdentifier.dec_missing_uri h
  · rcases hf with rfl
    · exact ClientCapabilities.dec_missing_languageIds h
  · rcases hf with rfl | rfl | rfl | rfl | rfl | rfl
    · exact InitializeBuild.dec_missing_displayName h
    · cases hr
    · cases hr
    · exact InitializeBuild.dec_missing_rootUri h
    · cases hr
    · cases hr
  · rcases hf with rfl
    · exact BuildTargetCleanCache.dec_missing_targets h
  · rcases hf with rfl
    · exact BuildTargetDependencyModules.dec_missing_targets h
  · rcases hf with rfl
    · exact BuildTargetResources.dec_missing_targets h
  · rcases hf with rfl
    · exact BuildTargetSources.dec_missing_targets h
  · rcases hf with rfl | rfl | rfl
    · exact BuildTargetCompile.dec_missing_target h
    · cases hr
    · cases hr
  · rcases hf with rfl | rfl | rfl | rfl | rfl
    · exact BuildTargetRun.dec_missing_target h
    · cases hr
    · cases hr
    · cases hr
    · cases hr
  · rcases hf with rfl | rfl | rfl | rfl | rfl
    · exact BuildTargetTest.dec_missing_target h
    · cases hr
    · cases hr
    · cases hr
    · cases hr
  · rcases hf with rfl
    · exact BuildTargetDependencySources.dec_missing_textDocument h
  · rcases hf with rfl
    · exact TextDocumentInverseSources.dec_missing_textDocument h
  · rcases hf with rfl | rfl | rfl
    · cases hr
    · cases hr
    · cases hr
  · rcases hf with rfl | rfl
    · cases hr
    · cases hr
  · rcases hf with rfl | rfl | rfl | rfl
    · exact ShowMessage.dec_missing_typ h
    · exact ShowMessage.dec_missing_message h
    · cases hr
    · cases hr
  · rcases hf with rfl | rfl | rfl | rfl
    · exact LogMessage.dec_missing_typ h
    · cases hr
    · cases hr
    · exact LogMessage.dec_missing_message h
  · rcases hf with rfl | rfl
    · exact Position.dec_missing_line h
    · exact Position.dec_missing_character h
  · rcases hf with rfl | rfl
    · exact Range.dec_missing_start h
    · exact Range.dec_missing_end_ h
  · rcases hf with rfl
    · exact CodeDescription.dec_missing_href h
  · rcases hf with rfl | rfl
    · exact Location.dec_missing_uri h
    · exact Location.dec_missing_range h
  · rcases hf with rfl | rfl
    · exact DiagnosticRelatedInformation.dec_missing_location h
    · exact DiagnosticRelatedInformation.dec_missing_message h
  · rcases hf with rfl | rfl | rfl | rfl | rfl | rfl | rfl | rfl | rfl
    · exact Diagnostic.dec_missing_range h
    · cases hr
    · cases hr
    · cases hr
    · cases hr
    · exact Diagnostic.dec_missing_message h
    · cases hr
    · cases hr
    · cases hr
  · rcases hf with rfl | rfl | rfl | rfl | rfl
    · exact PublishDiagnostics.dec_missing_textDocument h
    · exact PublishDiagnostics.dec_missing_buildTarget h
    · cases hr
    · exact PublishDiagnostics.dec_missing_diagnostics h
    · exact PublishDiagnostics.dec_missing_reset h
  · rcases hf with rfl | rfl | rfl | rfl | rfl
    · cases hr
    · cases hr
    · cases hr
    · cases hr
    · cases hr
  · rcases hf with rfl | rfl | rfl | rfl | rfl | rfl
    · cases hr
    · cases hr
    · cases hr
    · cases hr
    · cases hr
    · cases hr
  · rcases hf with rfl | rfl | rfl | rfl | rfl | rfl | rfl | rfl
    · cases hr
    · cases hr
    · cases hr
    · cases hr
    · cases hr
    · cases hr
    · cases hr
    · cases hr
  · rcases hf with rfl | rfl | rfl
    · exact BuildTargetEvent.dec_missing_target h
    · cases hr
    · cases hr
  · rcases hf with rfl
    · exact BuildTargetDidChange.dec_missing_changes h
  · rcases hf with rfl
    · exact CompileProvider.dec_missing_languageIds h
  · rcases hf with rfl
    · exact TestProvider.dec_missing_languageIds h
  · rcases hf with rfl
    · exact RunProvider.dec_missing_languageIds h
  · rcases hf with rfl
    · exact DebugProvider.dec_missing_languageIds h
  · rcases hf with rfl | rfl | rfl | rfl | rfl | rfl | rfl | rfl | rfl | rfl
    · cases hr
    · cases hr
    · cases hr
    · cases hr
    · cases hr
    · cases hr
    · cases hr
    · cases hr
    · cases hr
    · cases hr
  · rcases hf with rfl | rfl | rfl | rfl | rfl
    · exact InitializeBuildResult.dec_missing_displayName h
    · exact InitializeBuildResult.dec_missing_version h
    · exact InitializeBuildResult.dec_missing_bspVersion h
    · exact InitializeBuildResult.dec_missing_capabilities h
    · cases hr
  · rcases hf with rfl | rfl | rfl | rfl
    · exact BuildTargetCapabilities.dec_missing_canCompile h
    · exact BuildTargetCapabilities.dec_missing_canTest h
    · exact BuildTargetCapabilities.dec_missing_canRun h
    · exact BuildTargetCapabilities.dec_missing_canDebug h
  · rcases hf with rfl | rfl | rfl | rfl | rfl | rfl | rfl
    · exact BuildTarget.dec_missing_id h
    · cases hr
    · cases hr
    · exact BuildTarget.dec_missing_tags h
    · exact BuildTarget.dec_missing_capabilities h
    · exact BuildTarget.dec_missing_languageIds h
    · exact BuildTarget.dec_missing_dependencies h
  · rcases hf with rfl
    · exact WorkspaceBuildTargetsResult.dec_missing_targets h
  · rcases hf with rfl
    · exact DebugSessionStartResult.dec_missing_uri h
  · rcases hf with rfl | rfl | rfl
    · exact Sources.dec_missing_uri h
    · exact Sources.dec_missing_kind h
    · exact Sources.dec_missing_generated h
  · rcases hf with rfl | rfl
    · exact SourcesCollection.dec_missing_target h
    · exact SourcesCollection.dec_missing_sources h
  · rcases hf with rfl
    · exact BuildTargetSourcesResult.dec_missing_items h
  · rcases hf with rfl | rfl | rfl | rfl
    · cases hr
    · exact BuildTargetCompileResult.dec_missing_statusCode h
    · cases hr
    · cases hr
  · rcases hf with rfl | rfl | rfl | rfl
    · cases hr
    · exact BuildTargetTestResult.dec_missing_statusCode h
    · cases hr
    · cases hr
  · rcases hf with rfl | rfl
    · cases hr
    · exact BuildTargetRunResult.dec_missing_statusCode h
  · rcases hf with rfl | rfl
    · exact Resources.dec_missing_target h
    · exact Resources.dec_missing_resources h
  · rcases hf with rfl
    · exact BuildTargetResourcesResult.dec_missing_items h
  · rcases hf with rfl | rfl | rfl | rfl
    · exact DependencyModule.dec_missing_name h
    · exact DependencyModule.dec_missing_version h
    · cases hr
    · cases hr
  · rcases hf with rfl | rfl
    · exact DependencyModulesItem.dec_missing_target h
    · exact DependencyModulesItem.dec_missing_modules h
  · rcases hf with rfl
    · exact BuildTargetDependencyModulesResult.dec_missing_items h
  · rcases hf with rfl | rfl
    · cases hr
    · exact BuildTargetCleanCacheResult.dec_missing_cleaned h
  · rcases hf with rfl
    · exact BuildTargetInverseSourcesResult.dec_missing_targets h
  · rcases hf with rfl | rfl
    · exact DependencySourcesItem.dec_missing_target h
    · exact DependencySourcesItem.dec_missing_sources h
  · rcases hf with rfl
    · exact BuildTargetDependencySourcesResult.dec_missing_items h

/-- An absent optional or defaulted member is the same as its default. -/
theorem dec_absent [Ext] (p : Payload) (f : FieldSpec) (hf : f ∈ p.schema) (d : Json)
    (hd : f.absent = some d) {ms : Members} (h : List.lookup f.name ms = none) :
    p.dec (.obj ms) = p.dec (.obj ((f.name, d) :: ms)) := by
  cases p <;> simp only [schema, List.mem_cons, List.not_mem_nil, or_false] at hf
  · rcases hf with rfl
    · cases hd
  · rcases hf with rfl
    · cases hd
  · rcases hf with rfl
    · cases hd
  · rcases hf with rfl | rfl | rfl | rfl | rfl | rfl
    · cases hd
    · cases hd; exact InitializeBuild.dec_absent_version h
    · cases hd; exact InitializeBuild.dec_absent_bspVersion h
    · cases hd
    · cases hd; exact InitializeBuild.dec_absent_capabilities h
    · cases hd; exact InitializeBuild.dec_absent_data h
  · rcases hf with rfl
    · cases hd
  · rcases hf with rfl
    · cases hd
  · rcases hf with rfl
    · cases hd
  · rcases hf with rfl
    · cases hd
  · rcases hf with rfl | rfl | rfl
    · cases hd
    · cases hd; exact BuildTargetCompile.dec_absent_originId h
    · cases hd; exact BuildTargetCompile.dec_absent_arguments h
  · rcases hf with rfl | rfl | rfl | rfl | rfl
    · cases hd
    · cases hd; exact BuildTargetRun.dec_absent_originId h
    · cases hd; exact BuildTargetRun.dec_absent_arguments h
    · cases hd; exact BuildTargetRun.dec_absent_dataKind h
    · cases hd; exact BuildTargetRun.dec_absent_data h
  · rcases hf with rfl | rfl | rfl | rfl | rfl
    · cases hd
    · cases hd; exact BuildTargetTest.dec_absent_originId h
    · cases hd; exact BuildTargetTest.dec_absent_arguments h
    · cases hd; exact BuildTargetTest.dec_absent_dataKind h
    · cases hd; exact BuildTargetTest.dec_absent_data h
  · rcases hf with rfl
    · cases hd
  · rcases hf with rfl
    · cases hd
  · rcases hf with rfl | rfl | rfl
    · cases hd; exact DebugSessionStart.dec_absent_targets h
    · cases hd; exact DebugSessionStart.dec_absent_dataKind h
    · cases hd; exact DebugSessionStart.dec_absent_data h
  · rcases hf with rfl | rfl
    · cases hd; exact TaskId.dec_absent_id h
    · cases hd; exact TaskId.dec_absent_parents h
  · rcases hf with rfl | rfl | rfl | rfl
    · cases hd
    · cases hd
    · cases hd; exact ShowMessage.dec_absent_task h
    · cases hd; exact ShowMessage.dec_absent_originId h
  · rcases hf with rfl | rfl | rfl | rfl
    · cases hd
    · cases hd; exact LogMessage.dec_absent_task h
    · cases hd; exact LogMessage.dec_absent_originId h
    · cases hd
  · rcases hf with rfl | rfl
    · cases hd
    · cases hd
  · rcases hf with rfl | rfl
    · cases hd
    · cases hd
  · rcases hf with rfl
    · cases hd
  · rcases hf with rfl | rfl
    · cases hd
    · cases hd
  · rcases hf with rfl | rfl
    · cases hd
    · cases hd
  · rcases hf with rfl | rfl | rfl | rfl | rfl | rfl | rfl | rfl | rfl
    · cases hd
    · cases hd; exact Diagnostic.dec_absent_severity h
    · cases hd; exact Diagnostic.dec_absent_code h
    · cases hd; exact Diagnostic.dec_absent_codeDescription h
    · cases hd; exact Diagnostic.dec_absent_source h
    · cases hd
    · cases hd; exact Diagnostic.dec_absent_relatedInformation h
    · cases hd; exact Diagnostic.dec_absent_tags h
    · cases hd; exact Diagnostic.dec_absent_data h
  · rcases hf with rfl | rfl | rfl | rfl | rfl
    · cases hd
    · cases hd
    · cases hd; exact PublishDiagnostics.dec_absent_originId h
    · cases hd
    · cases hd
  · rcases hf with rfl | rfl | rfl | rfl | rfl
    · cases hd; exact TaskStart.dec_absent_taskId h
    · cases hd; exact TaskStart.dec_absent_eventTime h
    · cases hd; exact TaskStart.dec_absent_message h
    · cases hd; exact TaskStart.dec_absent_dataKind h
    · cases hd; exact TaskStart.dec_absent_data h
  · rcases hf with rfl | rfl | rfl | rfl | rfl | rfl
    · cases hd; exact TaskFinish.dec_absent_taskId h
    · cases hd; exact TaskFinish.dec_absent_eventTime h
    · cases hd; exact TaskFinish.dec_absent_message h
    · cases hd; exact TaskFinish.dec_absent_status h
    · cases hd; exact TaskFinish.dec_absent_dataKind h
    · cases hd; exact TaskFinish.dec_absent_data h
  · rcases hf with rfl | rfl | rfl | rfl | rfl | rfl | rfl | rfl
    · cases hd; exact TaskProgress.dec_absent_taskId h
    · cases hd; exact TaskProgress.dec_absent_eventTime h
    · cases hd; exact TaskProgress.dec_absent_message h
    · cases hd; exact TaskProgress.dec_absent_total h
    · cases hd; exact TaskProgress.dec_absent_progress h
    · cases hd; exact TaskProgress.dec_absent_unit h
    · cases hd; exact TaskProgress.dec_absent_dataKind h
    · cases hd; exact TaskProgress.dec_absent_data h
  · rcases hf with rfl | rfl | rfl
    · cases hd
    · cases hd; exact BuildTargetEvent.dec_absent_kind h
    · cases hd; exact BuildTargetEvent.dec_absent_data h
  · rcases hf with rfl
    · cases hd
  · rcases hf with rfl
    · cases hd
  · rcases hf with rfl
    · cases hd
  · rcases hf with rfl
    · cases hd
  · rcases hf with rfl
    · cases hd
  · rcases hf with rfl | rfl | rfl | rfl | rfl | rfl | rfl | rfl | rfl | rfl
    · cases hd; exact ServerCapabilities.dec_absent_compileProvider h
    · cases hd; exact ServerCapabilities.dec_absent_testProvider h
    · cases hd; exact ServerCapabilities.dec_absent_runProvider h
    · cases hd; exact ServerCapabilities.dec_absent_debugProvider h
    · cases hd; exact ServerCapabilities.dec_absent_inverseSourcesProvider h
    · cases hd; exact ServerCapabilities.dec_absent_dependencySourcesProvider h
    · cases hd; exact ServerCapabilities.dec_absent_dependencyModulesProvider h
    · cases hd; exact ServerCapabilities.dec_absent_resourcesProvider h
    · cases hd; exact ServerCapabilities.dec_absent_canReload h
    · cases hd; exact ServerCapabilities.dec_absent_buildTargetChangedProvider h
  · rcases hf with rfl | rfl | rfl | rfl | rfl
    · cases hd
    · cases hd
    · cases hd
    · cases hd
    · cases hd; exact InitializeBuildResult.dec_absent_data h
  · rcases hf with rfl | rfl | rfl | rfl
    · cases hd
    · cases hd
    · cases hd
    · cases hd
  · rcases hf with rfl | rfl | rfl | rfl | rfl | rfl | rfl
    · cases hd
    · cases hd; exact BuildTarget.dec_absent_displayName h
    · cases hd; exact BuildTarget.dec_absent_baseDirectory h
    · cases hd
    · cases hd
    · cases hd
    · cases hd
  · rcases hf with rfl
    · cases hd
  · rcases hf with rfl
    · cases hd
  · rcases hf with rfl | rfl | rfl
    · cases hd
    · cases hd
    · cases hd
  · rcases hf with rfl | rfl
    · cases hd
    · cases hd
  · rcases hf with rfl
    · cases hd
  · rcases hf with rfl | rfl | rfl | rfl
    · cases hd; exact BuildTargetCompileResult.dec_absent_originId h
    · cases hd
    · cases hd; exact BuildTargetCompileResult.dec_absent_dataKind h
    · cases hd; exact BuildTargetCompileResult.dec_absent_data h
  · rcases hf with rfl | rfl | rfl | rfl
    · cases hd; exact BuildTargetTestResult.dec_absent_originId h
    · cases hd
    · cases hd; exact BuildTargetTestResult.dec_absent_dataKind h
    · cases hd; exact BuildTargetTestResult.dec_absent_data h
  · rcases hf with rfl | rfl
    · cases hd; exact BuildTargetRunResult.dec_absent_originId h
    · cases hd
  · rcases hf with rfl | rfl
    · cases hd
    · cases hd
  · rcases hf with rfl
    · cases hd
  · rcases hf with rfl | rfl | rfl | rfl
    · cases hd
    · cases hd
    · cases hd; exact DependencyModule.dec_absent_dataKind h
    · cases hd; exact DependencyModule.dec_absent_data h
  · rcases hf with rfl | rfl
    · cases hd
    · cases hd
  · rcases hf with rfl
    · cases hd
  · rcases hf with rfl | rfl
    · cases hd; exact BuildTargetCleanCacheResult.dec_absent_message h
    · cases hd
  · rcases hf with rfl
    · cases hd
  · rcases hf with rfl | rfl
    · cases hd
    · cases hd
  · rcases hf with rfl
    · cases hd

/-- The members of an encoding, in order: specification for bsp-types/src/lib.rs:1-56. -/
def members [Ext] (p : Payload) (x : p.Carrier) : Members :=
  match p.enc x with
  | .obj ms => ms
  | _ => []

theorem enc_eq_obj [Ext] (p : Payload) (x : p.Carrier) : p.enc x = .obj (p.members x) := by
  cases p <;> rfl

private theorem keys_fld (k : String) (j : Json) :
    ((fld k j).map (·.1)).Sublist [k] := List.Sublist.refl _
private theorem keys_skipNone (k : String) (enc : α → Json) (o : Option α) :
    ((skipNone k enc o).map (·.1)).Sublist [k] := by cases o <;> simp [skipNone]
private theorem keys_skipIf (k : String) (c : Bool) (j : Json) :
    ((skipIf c k j).map (·.1)).Sublist [k] := by cases c <;> simp [skipIf]

/-- Only members of the schema are written, each at most once, in schema order. -/
theorem enc_keys [Ext] (p : Payload) (x : p.Carrier) :
    ((p.members x).map (·.1)).Sublist p.names := by
  cases p <;> simp only [members, enc, names, schema, List.map_cons, List.map_nil, List.map_append]
  · simp only [BuildTargetIdentifier.enc, List.map_append]; exact (keys_fld "uri" _)
  · simp only [TextDocumentIdentifier.enc, List.map_append]; exact (keys_fld "uri" _)
  · simp only [ClientCapabilities.enc, List.map_append]; exact (keys_fld "languageIds" _)
  · simp only [InitializeBuild.enc, List.map_append]; exact ((((((keys_fld "displayName" _).append (keys_skipIf "version" _ _)).append (keys_skipIf "bspVersion" _ _)).append (keys_fld "rootUri" _)).append (keys_fld "capabilities" _)).append (keys_skipNone "data" _ _))
  · simp only [BuildTargetCleanCache.enc, List.map_append]; exact (keys_fld "targets" _)
  · simp only [BuildTargetDependencyModules.enc, List.map_append]; exact (keys_fld "targets" _)
  · simp only [BuildTargetResources.enc, List.map_append]; exact (keys_fld "targets" _)
  · simp only [BuildTargetSources.enc, List.map_append]; exact (keys_fld "targets" _)
  · simp only [BuildTargetCompile.enc, List.map_append]; exact (((keys_fld "target" _).append (keys_skipNone "originId" _ _)).append (keys_skipNone "arguments" _ _))
  · simp only [BuildTargetRun.enc, List.map_append]; exact (((((keys_fld "target" _).append (keys_skipNone "originId" _ _)).append (keys_skipNone "arguments" _ _)).append (keys_skipNone "dataKind" _ _)).append (keys_skipNone "data" _ _))
  · simp only [BuildTargetTest.enc, List.map_append]; exact (((((keys_fld "target" _).append (keys_skipNone "originId" _ _)).append (keys_skipNone "arguments" _ _)).append (keys_skipNone "dataKind" _ _)).append (keys_skipNone "data" _ _))
  · simp only [BuildTargetDependencySources.enc, List.map_append]; exact (keys_fld "textDocument" _)
  · simp only [TextDocumentInverseSources.enc, List.map_append]; exact (keys_fld "textDocument" _)
  · simp only [DebugSessionStart.enc, List.map_append]; exact (((keys_fld "targets" _).append (keys_fld "dataKind" _)).append (keys_skipIf "data" _ _))
  · simp only [TaskId.enc, List.map_append]; exact ((keys_fld "id" _).append (keys_skipIf "parents" _ _))
  · simp only [ShowMessage.enc, List.map_append]; exact ((((keys_fld "type" _).append (keys_fld "message" _)).append (keys_skipNone "task" _ _)).append (keys_skipNone "originId" _ _))
  · simp only [LogMessage.enc, List.map_append]; exact ((((keys_fld "type" _).append (keys_skipNone "task" _ _)).append (keys_skipNone "originId" _ _)).append (keys_fld "message" _))
  · simp only [Position.enc, List.map_append]; exact ((keys_fld "line" _).append (keys_fld "character" _))
  · simp only [Range.enc, List.map_append]; exact ((keys_fld "start" _).append (keys_fld "end" _))
  · simp only [CodeDescription.enc, List.map_append]; exact (keys_fld "href" _)
  · simp only [Location.enc, List.map_append]; exact ((keys_fld "uri" _).append (keys_fld "range" _))
  · simp only [DiagnosticRelatedInformation.enc, List.map_append]; exact ((keys_fld "location" _).append (keys_fld "message" _))
  · simp only [Diagnostic.enc, List.map_append]; exact (((((((((keys_fld "range" _).append (keys_skipNone "severity" _ _)).append (keys_skipNone "code" _ _)).append (keys_skipNone "codeDescription" _ _)).append (keys_skipNone "source" _ _)).append (keys_fld "message" _)).append (keys_skipNone "relatedInformation" _ _)).append (keys_skipNone "tags" _ _)).append (keys_skipNone "data" _ _))
  · simp only [PublishDiagnostics.enc, List.map_append]; exact (((((keys_fld "textDocument" _).append (keys_fld "buildTarget" _)).append (keys_fld "originId" _)).append (keys_fld "diagnostics" _)).append (keys_fld "reset" _))
  · simp only [TaskStart.enc, List.map_append]; exact (((((keys_fld "taskId" _).append (keys_skipNone "eventTime" _ _)).append (keys_skipIf "message" _ _)).append (keys_skipIf "dataKind" _ _)).append (keys_skipIf "data" _ _))
  · simp only [TaskFinish.enc, List.map_append]; exact ((((((keys_fld "taskId" _).append (keys_skipNone "eventTime" _ _)).append (keys_skipIf "message" _ _)).append (keys_fld "status" _)).append (keys_skipIf "dataKind" _ _)).append (keys_skipIf "data" _ _))
  · simp only [TaskProgress.enc, List.map_append]; exact ((((((((keys_fld "taskId" _).append (keys_skipNone "eventTime" _ _)).append (keys_skipIf "message" _ _)).append (keys_fld "total" _)).append (keys_fld "progress" _)).append (keys_skipIf "unit" _ _)).append (keys_skipIf "dataKind" _ _)).append (keys_skipIf "data" _ _))
  · simp only [BuildTargetEvent.enc, List.map_append]; exact (((keys_fld "target" _).append (keys_skipNone "kind" _ _)).append (keys_skipNone "data" _ _))
  · simp only [BuildTargetDidChange.enc, List.map_append]; exact (keys_fld "changes" _)
  · simp only [CompileProvider.enc, List.map_append]; exact (keys_fld "languageIds" _)
  · simp only [TestProvider.enc, List.map_append]; exact (keys_fld "languageIds" _)
  · simp only [RunProvider.enc, List.map_append]; exact (keys_fld "languageIds" _)
  · simp only [DebugProvider.enc, List.map_append]; exact (keys_fld "languageIds" _)
  · simp only [ServerCapabilities.enc, List.map_append]; exact ((((((((((keys_skipNone "compileProvider" _ _).append (keys_skipNone "testProvider" _ _)).append (keys_skipNone "runProvider" _ _)).append (keys_skipNone "debugProvider" _ _)).append (keys_skipNone "inverseSourcesProvider" _ _)).append (keys_skipNone "dependencySourcesProvider" _ _)).append (keys_skipNone "dependencyModulesProvider" _ _)).append (keys_skipNone "resourcesProvider" _ _)).append (keys_skipNone "canReload" _ _)).append (keys_skipNone "buildTargetChangedProvider" _ _))
  · simp only [InitializeBuildResult.enc, List.map_append]; exact (((((keys_fld "displayName" _).append (keys_fld "version" _)).append (keys_fld "bspVersion" _)).append (keys_fld "capabilities" _)).append (keys_skipNone "data" _ _))
  · simp only [BuildTargetCapabilities.enc, List.map_append]; exact ((((keys_fld "canCompile" _).append (keys_fld "canTest" _)).append (keys_fld "canRun" _)).append (keys_fld "canDebug" _))
  · simp only [BuildTarget.enc, List.map_append]; exact (((((((keys_fld "id" _).append (keys_skipNone "displayName" _ _)).append (keys_skipNone "baseDirectory" _ _)).append (keys_fld "tags" _)).append (keys_fld "capabilities" _)).append (keys_fld "languageIds" _)).append (keys_fld "dependencies" _))
  · simp only [WorkspaceBuildTargetsResult.enc, List.map_append]; exact (keys_fld "targets" _)
  · simp only [DebugSessionStartResult.enc, List.map_append]; exact (keys_fld "uri" _)
  · simp only [Sources.enc, List.map_append]; exact (((keys_fld "uri" _).append (keys_fld "kind" _)).append (keys_fld "generated" _))
  · simp only [SourcesCollection.enc, List.map_append]; exact ((keys_fld "target" _).append (keys_fld "sources" _))
  · simp only [BuildTargetSourcesResult.enc, List.map_append]; exact (keys_fld "items" _)
  · simp only [BuildTargetCompileResult.enc, List.map_append]; exact ((((keys_skipNone "originId" _ _).append (keys_fld "statusCode" _)).append (keys_skipNone "dataKind" _ _)).append (keys_skipNone "data" _ _))
  · simp only [BuildTargetTestResult.enc, List.map_append]; exact ((((keys_skipNone "originId" _ _).append (keys_fld "statusCode" _)).append (keys_skipNone "dataKind" _ _)).append (keys_skipNone "data" _ _))
  · simp only [BuildTargetRunResult.enc, List.map_append]; exact ((keys_skipNone "originId" _ _).append (keys_fld "statusCode" _))
  · simp only [Resources.enc, List.map_append]; exact ((keys_fld "target" _).append (keys_fld "resources" _))
  · simp only [BuildTargetResourcesResult.enc, List.map_append]; exact (keys_fld "items" _)
  · simp only [DependencyModule.enc, List.map_append]; exact ((((keys_fld "name" _).append (keys_fld "version" _)).append (keys_fld "dataKind" _)).append (keys_fld "data" _))
  · simp only [DependencyModulesItem.enc, List.map_append]; exact ((keys_fld "target" _).append (keys_fld "modules" _))
  · simp only [BuildTargetDependencyModulesResult.enc, List.map_append]; exact (keys_fld "items" _)
  · simp only [BuildTargetCleanCacheResult.enc, List.map_append]; exact ((keys_skipNone "message" _ _).append (keys_fld "cleaned" _))
  · simp only [BuildTargetInverseSourcesResult.enc, List.map_append]; exact (keys_fld "targets" _)
  · simp only [DependencySourcesItem.enc, List.map_append]; exact ((keys_fld "target" _).append (keys_fld "sources" _))
  · simp only [BuildTargetDependencySourcesResult.enc, List.map_append]; exact (keys_fld "items" _)

/-- Members never omitted are always there. -/
theorem enc_present [Ext] (p : Payload) (x : p.Carrier) (f : FieldSpec) (hf : f ∈ p.schema)
    (hn : f.skip = .never) : List.lookup f.name (p.members x) ≠ none := by
  intro h
  rw [lookup_none_iff] at h
  cases p <;> simp only [schema, List.mem_cons, List.not_mem_nil, or_false] at hf
  · rcases hf with rfl
    · simp [members, enc, BuildTargetIdentifier.enc, named, fld] at h
  · rcases hf with rfl
    · simp [members, enc, TextDocumentIdentifier.enc, named, fld] at h
  · rcases hf with rfl
    · simp [members, enc, ClientCapabilities.enc, named, fld] at h
  · rcases hf with rfl | rfl | rfl | rfl | rfl | rfl
    · simp [members, enc, InitializeBuild.enc, named, fld] at h
    · cases hn
    · cases hn
    · simp [members, enc, InitializeBuild.enc, named, fld] at h
    · simp [members, enc, InitializeBuild.enc, named, fld] at h
    · cases hn
  · rcases hf with rfl
    · simp [members, enc, BuildTargetCleanCache.enc, named, fld] at h
  · rcases hf with rfl
    · simp [members, enc, BuildTargetDependencyModules.enc, named, fld] at h
  · rcases hf with rfl
    · simp [members, enc, BuildTargetResources.enc, named, fld] at h
  · rcases hf with rfl
    · simp [members, enc, BuildTargetSources.enc, named, fld] at h
  · rcases hf with rfl | rfl | rfl
    · simp [members, enc, BuildTargetCompile.enc, named, fld] at h
    · cases hn
    · cases hn
  · rcases hf with rfl | rfl | rfl | rfl | rfl
    · simp [members, enc, BuildTargetRun.enc, named, fld] at h
    · cases hn
    · cases hn
    · cases hn
    · cases hn
  · rcases hf with rfl | rfl | rfl | rfl | rfl
    · simp [members, enc, BuildTargetTest.enc, named, fld] at h
    · cases hn
    · cases hn
    · cases hn
    · cases hn
  · rcases hf with rfl
    · simp [members, enc, BuildTargetDependencySources.enc, named, fld] at h
  · rcases hf with rfl
    · simp [members, enc, TextDocumentInverseSources.enc, named, fld] at h
  · rcases hf with rfl | rfl | rfl
    · simp [members, enc, DebugSessionStart.enc, named, fld] at h
    · simp [members, enc, DebugSessionStart.enc, named, fld] at h
    · cases hn
  · rcases hf with rfl | rfl
    · simp [members, enc, TaskId.enc, named, fld] at h
    · cases hn
  · rcases hf with rfl | rfl | rfl | rfl
    · simp [members, enc, ShowMessage.enc, named, fld] at h
    · simp [members, enc, ShowMessage.enc, named, fld] at h
    · cases hn
    · cases hn
  · rcases hf with rfl | rfl | rfl | rfl
    · simp [members, enc, LogMessage.enc, named, fld] at h
    · cases hn
    · cases hn
    · simp [members, enc, LogMessage.enc, named, fld] at h
  · rcases hf with rfl | rfl
    · simp [members, enc, Position.enc, named, fld] at h
    · simp [members, enc, Position.enc, named, fld] at h
  · rcases hf with rfl | rfl
    · simp [members, enc, Range.enc, named, fld] at h
    · simp [members, enc, Range.enc, named, fld] at h
  · rcases hf with rfl
    · simp [members, enc, CodeDescription.enc, named, fld] at h
  · rcases hf with rfl | rfl
    · simp [members, enc, Location.enc, named, fld] at h
    · simp [members, enc, Location.enc, named, fld] at h
  · rcases hf with rfl | rfl
    · simp [members, enc, DiagnosticRelatedInformation.enc, named, fld] at h
    · simp [members, enc, DiagnosticRelatedInformation.enc, named, fld] at h
  · rcases hf with rfl | rfl | rfl | rfl | rfl | rfl | rfl | rfl | rfl
    · simp [members, enc, Diagnostic.enc, named, fld] at h
    · cases hn
    · cases hn
    · cases hn
    · cases hn
    · simp [members, enc, Diagnostic.enc, named, fld] at h
    · cases hn
    · cases hn
    · cases hn
  · rcases hf with rfl | rfl | rfl | rfl | rfl
    · simp [members, enc, PublishDiagnostics.enc, named, fld] at h
    · simp [members, enc, PublishDiagnostics.enc, named, fld] at h
    · simp [members, enc, PublishDiagnostics.enc, named, fld] at h
    · simp [members, enc, PublishDiagnostics.enc, named, fld] at h
    · simp [members, enc, PublishDiagnostics.enc, named, fld] at h
  · rcases hf with rfl | rfl | rfl | rfl | rfl
    · simp [members, enc, TaskStart.enc, named, fld] at h
    · cases hn
    · cases hn
    · cases hn
    · cases hn
  · rcases hf with rfl | rfl | rfl | rfl | rfl | rfl
    · simp [members, enc, TaskFinish.enc, named, fld] at h
    · cases hn
    · cases hn
    · simp [members, enc, TaskFinish.enc, named, fld] at h
    · cases hn
    · cases hn
  · rcases hf with rfl | rfl | rfl | rfl | rfl | rfl | rfl | rfl
    · simp [members, enc, TaskProgress.enc, named, fld] at h
    · cases hn
    · cases hn
    · simp [members, enc, TaskProgress.enc, named, fld] at h
    · simp [members, enc, TaskProgress.enc, named, fld] at h
    · cases hn
    · cases hn
    · cases hn
  · rcases hf with rfl | rfl | rfl
    · simp [members, enc, BuildTargetEvent.enc, named, fld] at h
    · cases hn
    · cases hn
  · rcases hf with rfl
    · simp [members, enc, BuildTargetDidChange.enc, named, fld] at h
  · rcases hf with rfl
    · simp [members, enc, CompileProvider.enc, named, fld] at h
  · rcases hf with rfl
    · simp [members, enc, TestProvider.enc, named, fld] at h
  · rcases hf with rfl
    · simp [members, enc, RunProvider.enc, named, fld] at h
  · rcases hf with rfl
    · simp [members, enc, DebugProvider.enc, named, fld] at h
  · rcases hf with rfl | rfl | rfl | rfl | rfl | rfl | rfl | rfl | rfl | rfl
    · cases hn
    · cases hn
    · cases hn
    · cases hn
    · cases hn
    · cases hn
    · cases hn
    · cases hn
    · cases hn
    · cases hn
  · rcases hf with rfl | rfl | rfl | rfl | rfl
    · simp [members, enc, InitializeBuildResult.enc, named, fld] at h
    · simp [members, enc, InitializeBuildResult.enc, named, fld] at h
    · simp [members, enc, InitializeBuildResult.enc, named, fld] at h
    · simp [members, enc, InitializeBuildResult.enc, named, fld] at h
    · cases hn
  · rcases hf with rfl | rfl | rfl | rfl
    · simp [members, enc, BuildTargetCapabilities.enc, named, fld] at h
    · simp [members, enc, BuildTargetCapabilities.enc, named, fld] at h
    · simp [members, enc, BuildTargetCapabilities.enc, named, fld] at h
    · simp [members, enc, BuildTargetCapabilities.enc, named, fld] at h
  · rcases hf with rfl | rfl | rfl | rfl | rfl | rfl | rfl
    · simp [members, enc, BuildTarget.enc, named, fld] at h
    · cases hn
    · cases hn
    · simp [members, enc, BuildTarget.enc, named, fld] at h
    · simp [members, enc, BuildTarget.enc, named, fld] at h
    · simp [members, enc, BuildTarget.enc, named, fld] at h
    · simp [members, enc, BuildTarget.enc, named, fld] at h
  · rcases hf with rfl
    · simp [members, enc, WorkspaceBuildTargetsResult.enc, named, fld] at h
  · rcases hf with rfl
    · simp [members, enc, DebugSessionStartResult.enc, named, fld] at h
  · rcases hf with rfl | rfl | rfl
    · simp [members, enc, Sources.enc, named, fld] at h
    · simp [members, enc, Sources.enc, named, fld] at h
    · simp [members, enc, Sources.enc, named, fld] at h
  · rcases hf with rfl | rfl
    · simp [members, enc, SourcesCollection.enc, named, fld] at h
    · simp [members, enc, SourcesCollection.enc, named, fld] at h
  · rcases hf with rfl
    · simp [members, enc, BuildTargetSourcesResult.enc, named, fld] at h
  · rcases hf with rfl | rfl | rfl | rfl
    · cases hn
    · simp [members, enc, BuildTargetCompileResult.enc, named, fld] at h
    · cases hn
    · cases hn
  · rcases hf with rfl | rfl | rfl | rfl
    · cases hn
    · simp [members, enc, BuildTargetTestResult.enc, named, fld] at h
    · cases hn
    · cases hn
  · rcases hf with rfl | rfl
    · cases hn
    · simp [members, enc, BuildTargetRunResult.enc, named, fld] at h
  · rcases hf with rfl | rfl
    · simp [members, enc, Resources.enc, named, fld] at h
    · simp [members, enc, Resources.enc, named, fld] at h
  · rcases hf with rfl
    · simp [members, enc, BuildTargetResourcesResult.enc, named, fld] at h
  · rcases hf with rfl | rfl | rfl | rfl
    · simp [members, enc, DependencyModule.enc, named, fld] at h
    · simp [members, enc, DependencyModule.enc, named, fld] at h
    · simp [members, enc, DependencyModule.enc, named, fld] at h
    · simp [members, enc, DependencyModule.enc, named, fld] at h
  · rcases hf with rfl | rfl
    · simp [members, enc, DependencyModulesItem.enc, named, fld] at h
    · simp [members, enc, DependencyModulesItem.enc, named, fld] at h
  · rcases hf with rfl
    · simp [members, enc, BuildTargetDependencyModulesResult.enc, named, fld] at h
  · rcases hf with rfl | rfl
    · cases hn
    · simp [members, enc, BuildTargetCleanCacheResult.enc, named, fld] at h
  · rcases hf with rfl
    · simp [members, enc, BuildTargetInverseSourcesResult.enc, named, fld] at h
  · rcases hf with rfl | rfl
    · simp [members, enc, DependencySourcesItem.enc, named, fld] at h
    · simp [members, enc, DependencySourcesItem.enc, named, fld] at h
  · rcases hf with rfl
    · simp [members, enc, BuildTargetDependencySourcesResult.enc, named, fld] at h

/-- A member with an omission rule is never written with the omitted value. -/
theorem enc_omitted [Ext] (p : Payload) (x : p.Carrier) (f : FieldSpec) (hf : f ∈ p.schema) (j : Json)
    (hj : f.skip = .whenEq j) : (f.name, j) ∉ p.members x := by
  intro h
  cases p <;> simp only [schema, List.mem_cons, List.not_mem_nil, or_false] at hf
  · rcases hf with rfl
    · cases hj
  · rcases hf with rfl
    · cases hj
  · rcases hf with rfl
    · cases hj
  · rcases hf with rfl | rfl | rfl | rfl | rfl | rfl
    · cases hj
    · cases hj; simp [members, enc, InitializeBuild.enc, fld, skipNone_mem, skipIf_mem] at h
    · cases hj; simp [members, enc, InitializeBuild.enc, fld, skipNone_mem, skipIf_mem] at h
    · cases hj
    · cases hj
    · cases hj
  · rcases hf with rfl
    · cases hj
  · rcases hf with rfl
    · cases hj
  · rcases hf with rfl
    · cases hj
  · rcases hf with rfl
    · cases hj
  · rcases hf with rfl | rfl | rfl
    · cases hj
    · cases hj; simp [members, enc, BuildTargetCompile.enc, fld, skipNone_mem, skipIf_mem, ] at h
    · cases hj; simp [members, enc, BuildTargetCompile.enc, fld, skipNone_mem, skipIf_mem, ] at h
  · rcases hf with rfl | rfl | rfl | rfl | rfl
    · cases hj
    · cases hj; simp [members, enc, BuildTargetRun.enc, fld, skipNone_mem, skipIf_mem, ] at h
    · cases hj; simp [members, enc, BuildTargetRun.enc, fld, skipNone_mem, skipIf_mem, ] at h
    · cases hj; simp [members, enc, BuildTargetRun.enc, fld, skipNone_mem, skipIf_mem, ] at h
    · cases hj
  · rcases hf with rfl | rfl | rfl | rfl | rfl
    · cases hj
    · cases hj; simp [members, enc, BuildTargetTest.enc, fld, skipNone_mem, skipIf_mem, ] at h
    · cases hj; simp [members, enc, BuildTargetTest.enc, fld, skipNone_mem, skipIf_mem, ] at h
    · cases hj; simp [members, enc, BuildTargetTest.enc, fld, skipNone_mem, skipIf_mem, ] at h
    · cases hj
  · rcases hf with rfl
    · cases hj
  · rcases hf with rfl
    · cases hj
  · rcases hf with rfl | rfl | rfl
    · cases hj
    · cases hj
    · cases hj; simp [members, enc, DebugSessionStart.enc, fld, skipNone_mem, skipIf_mem, Value.isNull] at h; exact h.1 h.2.symm
  · rcases hf with rfl | rfl
    · cases hj
    · cases hj; simp [members, enc, TaskId.enc, fld, skipNone_mem, skipIf_mem, encList] at h
  · rcases hf with rfl | rfl | rfl | rfl
    · cases hj
    · cases hj
    · cases hj; simp [members, enc, ShowMessage.enc, fld, skipNone_mem, skipIf_mem, TaskId.enc, ] at h
    · cases hj; simp [members, enc, ShowMessage.enc, fld, skipNone_mem, skipIf_mem, ] at h
  · rcases hf with rfl | rfl | rfl | rfl
    · cases hj
    · cases hj; simp [members, enc, LogMessage.enc, fld, skipNone_mem, skipIf_mem, TaskId.enc, ] at h
    · cases hj; simp [members, enc, LogMessage.enc, fld, skipNone_mem, skipIf_mem, ] at h
    · cases hj
  · rcases hf with rfl | rfl
    · cases hj
    · cases hj
  · rcases hf with rfl | rfl
    · cases hj
    · cases hj
  · rcases hf with rfl
    · cases hj
  · rcases hf with rfl | rfl
    · cases hj
    · cases hj
  · rcases hf with rfl | rfl
    · cases hj
    · cases hj
  · rcases hf with rfl | rfl | rfl | rfl | rfl | rfl | rfl | rfl | rfl
    · cases hj
    · cases hj; simp [members, enc, Diagnostic.enc, fld, skipNone_mem, skipIf_mem, encI32] at h
    · cases hj; simp [members, enc, Diagnostic.enc, fld, skipNone_mem, skipIf_mem, NumberOrString.enc_ne_null] at h
    · cases hj; simp [members, enc, Diagnostic.enc, fld, skipNone_mem, skipIf_mem, CodeDescription.enc, ] at h
    · cases hj; simp [members, enc, Diagnostic.enc, fld, skipNone_mem, skipIf_mem, ] at h
    · cases hj
    · cases hj; simp [members, enc, Diagnostic.enc, fld, skipNone_mem, skipIf_mem, encList] at h
    · cases hj; simp [members, enc, Diagnostic.enc, fld, skipNone_mem, skipIf_mem, encList] at h
    · cases hj
  · rcases hf with rfl | rfl | rfl | rfl | rfl
    · cases hj
    · cases hj
    · cases hj
    · cases hj
    · cases hj
  · rcases hf with rfl | rfl | rfl | rfl | rfl
    · cases hj
    · cases hj; simp [members, enc, TaskStart.enc, fld, skipNone_mem, skipIf_mem, encU32, ] at h
    · cases hj; simp [members, enc, TaskStart.enc, fld, skipNone_mem, skipIf_mem] at h
    · cases hj; simp [members, enc, TaskStart.enc, fld, skipNone_mem, skipIf_mem] at h; exact TaskDataKind.enc_ne_null h.1 h.2
    · cases hj; simp [members, enc, TaskStart.enc, fld, skipNone_mem, skipIf_mem, Value.isNull] at h; exact h.1 h.2.symm
  · rcases hf with rfl | rfl | rfl | rfl | rfl | rfl
    · cases hj
    · cases hj; simp [members, enc, TaskFinish.enc, fld, skipNone_mem, skipIf_mem, encU32, ] at h
    · cases hj; simp [members, enc, TaskFinish.enc, fld, skipNone_mem, skipIf_mem] at h
    · cases hj
    · cases hj; simp [members, enc, TaskFinish.enc, fld, skipNone_mem, skipIf_mem] at h; exact TaskDataKind.enc_ne_null h.1 h.2
    · cases hj; simp [members, enc, TaskFinish.enc, fld, skipNone_mem, skipIf_mem, Value.isNull] at h; exact h.1 h.2.symm
  · rcases hf with rfl | rfl | rfl | rfl | rfl | rfl | rfl | rfl
    · cases hj
    · cases hj; simp [members, enc, TaskProgress.enc, fld, skipNone_mem, skipIf_mem, encU32, ] at h
    · cases hj; simp [members, enc, TaskProgress.enc, fld, skipNone_mem, skipIf_mem] at h
    · cases hj
    · cases hj
    · cases hj; simp [members, enc, TaskProgress.enc, fld, skipNone_mem, skipIf_mem] at h
    · cases hj; simp [members, enc, TaskProgress.enc, fld, skipNone_mem, skipIf_mem] at h; exact TaskDataKind.enc_ne_null h.1 h.2
    · cases hj; simp [members, enc, TaskProgress.enc, fld, skipNone_mem, skipIf_mem, Value.isNull] at h; exact h.1 h.2.symm
  · rcases hf with rfl | rfl | rfl
    · cases hj
    · cases hj; simp [members, enc, BuildTargetEvent.enc, fld, skipNone_mem, skipIf_mem, BuildTargetEventKind.enc, ] at h
    · cases hj
  · rcases hf with rfl
    · cases hj
  · rcases hf with rfl
    · cases hj
  · rcases hf with rfl
    · cases hj
  · rcases hf with rfl
    · cases hj
  · rcases hf with rfl
    · cases hj
  · rcases hf with rfl | rfl | rfl | rfl | rfl | rfl | rfl | rfl | rfl | rfl
    · cases hj; simp [members, enc, ServerCapabilities.enc, fld, skipNone_mem, skipIf_mem, CompileProvider.enc, ] at h
    · cases hj; simp [members, enc, ServerCapabilities.enc, fld, skipNone_mem, skipIf_mem, TestProvider.enc, ] at h
    · cases hj; simp [members, enc, ServerCapabilities.enc, fld, skipNone_mem, skipIf_mem, RunProvider.enc, ] at h
    · cases hj; simp [members, enc, ServerCapabilities.enc, fld, skipNone_mem, skipIf_mem, DebugProvider.enc, ] at h
    · cases hj; simp [members, enc, ServerCapabilities.enc, fld, skipNone_mem, skipIf_mem, ] at h
    · cases hj; simp [members, enc, ServerCapabilities.enc, fld, skipNone_mem, skipIf_mem, ] at h
    · cases hj; simp [members, enc, ServerCapabilities.enc, fld, skipNone_mem, skipIf_mem, ] at h
    · cases hj; simp [members, enc, ServerCapabilities.enc, fld, skipNone_mem, skipIf_mem, ] at h
    · cases hj; simp [members, enc, ServerCapabilities.enc, fld, skipNone_mem, skipIf_mem, ] at h
    · cases hj; simp [members, enc, ServerCapabilities.enc, fld, skipNone_mem, skipIf_mem, ] at h
  · rcases hf with rfl | rfl | rfl | rfl | rfl
    · cases hj
    · cases hj
    · cases hj
    · cases hj
    · cases hj
  · rcases hf with rfl | rfl | rfl | rfl
    · cases hj
    · cases hj
    · cases hj
    · cases hj
  · rcases hf with rfl | rfl | rfl | rfl | rfl | rfl | rfl
    · cases hj
    · cases hj; simp [members, enc, BuildTarget.enc, fld, skipNone_mem, skipIf_mem, ] at h
    · cases hj; simp [members, enc, BuildTarget.enc, fld, skipNone_mem, skipIf_mem, ] at h
    · cases hj
    · cases hj
    · cases hj
    · cases hj
  · rcases hf with rfl
    · cases hj
  · rcases hf with rfl
    · cases hj
  · rcases hf with rfl | rfl | rfl
    · cases hj
    · cases hj
    · cases hj
  · rcases hf with rfl | rfl
    · cases hj
    · cases hj
  · rcases hf with rfl
    · cases hj
  · rcases hf with rfl | rfl | rfl | rfl
    · cases hj; simp [members, enc, BuildTargetCompileResult.enc, fld, skipNone_mem, skipIf_mem, ] at h
    · cases hj
    · cases hj; simp [members, enc, BuildTargetCompileResult.enc, fld, skipNone_mem, skipIf_mem, ] at h
    · cases hj
  · rcases hf with rfl | rfl | rfl | rfl
    · cases hj; simp [members, enc, BuildTargetTestResult.enc, fld, skipNone_mem, skipIf_mem, ] at h
    · cases hj
    · cases hj; simp [members, enc, BuildTargetTestResult.enc, fld, skipNone_mem, skipIf_mem, ] at h
    · cases hj
  · rcases hf with rfl | rfl
    · cases hj; simp [members, enc, BuildTargetRunResult.enc, fld, skipNone_mem, skipIf_mem, ] at h
    · cases hj
  · rcases hf with rfl | rfl
    · cases hj
    · cases hj
  · rcases hf with rfl
    · cases hj
  · rcases hf with rfl | rfl | rfl | rfl
    · cases hj
    · cases hj
    · cases hj
    · cases hj
  · rcases hf with rfl | rfl
    · cases hj
    · cases hj
  · rcases hf with rfl
    · cases hj
  · rcases hf with rfl | rfl
    · cases hj; simp [members, enc, BuildTargetCleanCacheResult.enc, fld, skipNone_mem, skipIf_mem, ] at h
    · cases hj
  · rcases hf with rfl
    · cases hj
  · rcases hf with rfl | rfl
    · cases hj
    · cases hj
  · rcases hf with rfl
    · cases hj

/-- Values that come back from the wire unchanged: no optional datum that is present but null, no
custom task data kind with a reserved name (specification for the types of bsp-types/src/lib.rs:1-56,
used in C29-C31). -/
def Plain [Ext] : (p : Payload) → p.Carrier → Prop
  | .initializeBuild, x => x.data ≠ some Value.null
  | .buildTargetRun, x => x.data ≠ some Value.null
  | .buildTargetTest, x => x.data ≠ some Value.null
  | .diagnostic, x => x.data ≠ some Value.null
  | .publishDiagnostics, x => (∀ e ∈ x.diagnostics, e.data ≠ some Value.null)
  | .taskStart, x => (∀ s ∈ reservedKinds, x.dataKind ≠ .custom s)
  | .taskFinish, x => (∀ s ∈ reservedKinds, x.dataKind ≠ .custom s)
  | .taskProgress, x => (∀ s ∈ reservedKinds, x.dataKind ≠ .custom s)
  | .buildTargetEvent, x => x.data ≠ some Value.null
  | .buildTargetDidChange, x => (∀ e ∈ x.changes, e.data ≠ some Value.null)
  | .initializeBuildResult, x => x.data ≠ some Value.null
  | .buildTargetCompileResult, x => x.data ≠ some Value.null
  | .buildTargetTestResult, x => x.data ≠ some Value.null
  | .dependencyModule, x => x.data ≠ some Value.null
  | .dependencyModulesItem, x => (∀ e ∈ x.modules, e.data ≠ some Value.null)
  | .buildTargetDependencyModulesResult, x => (∀ e ∈ x.items, (∀ f ∈ e.modules, f.data ≠ some Value.null))
  | _, _ => True

private theorem initializeBuild_plain [Ext] (x : InitializeBuild) (h : Plain .initializeBuild x) : InitializeBuild.norm x = x := by
  simp only [InitializeBuild.norm, normData_plain h]
private theorem buildTargetRun_plain [Ext] (x : BuildTargetRun) (h : Plain .buildTargetRun x) : BuildTargetRun.norm x = x := by
  simp only [BuildTargetRun.norm, normData_plain h]
private theorem buildTargetTest_plain [Ext] (x : BuildTargetTest) (h : Plain .buildTargetTest x) : BuildTargetTest.norm x = x := by
  simp only [BuildTargetTest.norm, normData_plain h]
private theorem diagnostic_plain [Ext] (x : Diagnostic) (h : Plain .diagnostic x) : Diagnostic.norm x = x := by
  simp only [Diagnostic.norm, normData_plain h]
private theorem publishDiagnostics_plain [Ext] (x : PublishDiagnostics) (h : Plain .publishDiagnostics x) : PublishDiagnostics.norm x = x := by
  simp only [PublishDiagnostics.norm]
  rw [map_plain (fun e he => diagnostic_plain e (h e he))]
private theorem taskStart_plain [Ext] (x : TaskStart) (h : Plain .taskStart x) : TaskStart.norm x = x := by
  simp only [TaskStart.norm, TaskDataKind.norm_plain h]
private theorem taskFinish_plain [Ext] (x : TaskFinish) (h : Plain .taskFinish x) : TaskFinish.norm x = x := by
  simp only [TaskFinish.norm, TaskDataKind.norm_plain h]
private theorem taskProgress_plain [Ext] (x : TaskProgress) (h : Plain .taskProgress x) : TaskProgress.norm x = x := by
  simp only [TaskProgress.norm, TaskDataKind.norm_plain h]
private theorem buildTargetEvent_plain [Ext] (x : BuildTargetEvent) (h : Plain .buildTargetEvent x) : BuildTargetEvent.norm x = x := by
  simp only [BuildTargetEvent.norm, normData_plain h]
private theorem buildTargetDidChange_plain [Ext] (x : BuildTargetDidChange) (h : Plain .buildTargetDidChange x) : BuildTargetDidChange.norm x = x := by
  simp only [BuildTargetDidChange.norm]
  rw [map_plain (fun e he => buildTargetEvent_plain e (h e he))]
private theorem initializeBuildResult_plain [Ext] (x : InitializeBuildResult) (h : Plain .initializeBuildResult x) : InitializeBuildResult.norm x = x := by
  simp only [InitializeBuildResult.norm, normData_plain h]
private theorem buildTargetCompileResult_plain [Ext] (x : BuildTargetCompileResult) (h : Plain .buildTargetCompileResult x) : BuildTargetCompileResult.norm x = x := by
  simp only [BuildTargetCompileResult.norm, normData_plain h]
private theorem buildTargetTestResult_plain [Ext] (x : BuildTargetTestResult) (h : Plain .buildTargetTestResult x) : BuildTargetTestResult.norm x = x := by
  simp only [BuildTargetTestResult.norm, normData_plain h]
private theorem dependencyModule_plain [Ext] (x : DependencyModule) (h : Plain .dependencyModule x) : DependencyModule.norm x = x := by
  simp only [DependencyModule.norm, normData_plain h]
private theorem dependencyModulesItem_plain [Ext] (x : DependencyModulesItem) (h : Plain .dependencyModulesItem x) : DependencyModulesItem.norm x = x := by
  simp only [DependencyModulesItem.norm]
  rw [map_plain (fun e he => dependencyModule_plain e (h e he))]
private theorem buildTargetDependencyModulesResult_plain [Ext] (x : BuildTargetDependencyModulesResult) (h : Plain .buildTargetDependencyModulesResult x) : BuildTargetDependencyModulesResult.norm x = x := by
  simp only [BuildTargetDependencyModulesResult.norm]
  rw [map_plain (fun e he => dependencyModulesItem_plain e (h e he))]

theorem norm_plain [Ext] (p : Payload) (x : p.Carrier) (h : p.Plain x) : p.norm x = x := by
  cases p <;> try rfl
  · exact initializeBuild_plain x h
  · exact buildTargetRun_plain x h
  · exact buildTargetTest_plain x h
  · exact diagnostic_plain x h
  · exact publishDiagnostics_plain x h
  · exact taskStart_plain x h
  · exact taskFinish_plain x h
  · exact taskProgress_plain x h
  · exact buildTargetEvent_plain x h
  · exact buildTargetDidChange_plain x h
  · exact initializeBuildResult_plain x h
  · exact buildTargetCompileResult_plain x h
  · exact buildTargetTestResult_plain x h
  · exact dependencyModule_plain x h
  · exact dependencyModulesItem_plain x h
  · exact buildTargetDependencyModulesResult_plain x h

end Payload
end Bsp
