/-
What the decoders of the payload types deliver: every field in terms of the tree (`dec_inv`), values
that are plain (`plain_of_dec`), and values that, encoded again, do not nest deeper than the tree
(`keeps`).  Generated by tools/gen_types.py.
-/
import Verif.Keeps

set_option linter.unusedVariables false

namespace Bsp
open Json Spec

/-! ### BuildTargetIdentifier -/

namespace BuildTargetIdentifier

theorem dec_inv [Ext] {j : Json} {x : BuildTargetIdentifier} (h : dec j = some x) :
    ∃ s, structSrc fields j = some s ∧ s.req 0 "uri" decUrl = some x.uri := by
  simp only [dec, Option.bind_eq_bind, Option.bind_eq_some_iff] at h
  obtain ⟨s, hs, a0, h0, e⟩ := h
  cases e
  exact ⟨s, hs, h0⟩

theorem keeps [Ext] {d : Nat} (hd : 1 ≤ d) : Keeps d dec enc := by
  intro j x h hj
  obtain ⟨d, rfl⟩ : ∃ e, d = e + 1 := ⟨d - 1, by omega⟩
  obtain ⟨s, hs, h0⟩ := dec_inv h
  exact fits_obj.2 (fitsAll_fld (req_fits (keeps_url _) hs hj h0))

end BuildTargetIdentifier

/-! ### TextDocumentIdentifier -/

namespace TextDocumentIdentifier

theorem dec_inv [Ext] {j : Json} {x : TextDocumentIdentifier} (h : dec j = some x) :
    ∃ s, structSrc fields j = some s ∧ s.req 0 "uri" decUrl = some x.uri := by
  simp only [dec, Option.bind_eq_bind, Option.bind_eq_some_iff] at h
  obtain ⟨s, hs, a0, h0, e⟩ := h
  cases e
  exact ⟨s, hs, h0⟩

theorem keeps [Ext] {d : Nat} (hd : 1 ≤ d) : Keeps d dec enc := by
  intro j x h hj
  obtain ⟨d, rfl⟩ : ∃ e, d = e + 1 := ⟨d - 1, by omega⟩
  obtain ⟨s, hs, h0⟩ := dec_inv h
  exact fits_obj.2 (fitsAll_fld (req_fits (keeps_url _) hs hj h0))

end TextDocumentIdentifier

/-! ### ClientCapabilities -/

namespace ClientCapabilities

theorem dec_inv {j : Json} {x : ClientCapabilities} (h : dec j = some x) :
    ∃ s, structSrc fields j = some s ∧ s.req 0 "languageIds" (decList decStr) = some x.languageIds := by
  simp only [dec, Option.bind_eq_bind, Option.bind_eq_some_iff] at h
  obtain ⟨s, hs, a0, h0, e⟩ := h
  cases e
  exact ⟨s, hs, h0⟩

theorem keeps {d : Nat} (hd : 2 ≤ d) : Keeps d dec enc := by
  intro j x h hj
  obtain ⟨d, rfl⟩ : ∃ e, d = e + 1 := ⟨d - 1, by omega⟩
  obtain ⟨s, hs, h0⟩ := dec_inv h
  exact fits_obj.2 (fitsAll_fld (req_fits (keeps_list' (by omega) (keeps_str _)) hs hj h0))

end ClientCapabilities

/-! ### InitializeBuild -/

namespace InitializeBuild

theorem dec_inv [Ext] {j : Json} {x : InitializeBuild} (h : dec j = some x) :
    ∃ s, structSrc fields j = some s ∧ s.req 0 "displayName" decStr = some x.displayName ∧
      s.dflt 1 "version" "" decStr = some x.version ∧
      s.dflt 2 "bspVersion" "" decStr = some x.bspVersion ∧
      s.req 3 "rootUri" decUrl = some x.rootUri ∧
      s.dflt 4 "capabilities" ClientCapabilities.default ClientCapabilities.dec = some x.capabilities ∧
      s.dflt 5 "data" none (decOpt decValue) = some x.data := by
  simp only [dec, Option.bind_eq_bind, Option.bind_eq_some_iff] at h
  obtain ⟨s, hs, a0, h0, a1, h1, a2, h2, a3, h3, a4, h4, a5, h5, e⟩ := h
  cases e
  exact ⟨s, hs, h0, h1, h2, h3, h4, h5⟩

theorem keeps [Ext] {d : Nat} (hd : 3 ≤ d) : Keeps d dec enc := by
  intro j x h hj
  obtain ⟨d, rfl⟩ : ∃ e, d = e + 1 := ⟨d - 1, by omega⟩
  obtain ⟨s, hs, h0, h1, h2, h3, h4, h5⟩ := dec_inv h
  exact fits_obj.2 (fitsAll_append (fitsAll_append (fitsAll_append (fitsAll_append (fitsAll_append (fitsAll_fld (req_fits (keeps_str _) hs hj h0))
    (fitsAll_skipIf (dflt_fits (keeps_str _) hs hj (fits_str _ _) h1)))
    (fitsAll_skipIf (dflt_fits (keeps_str _) hs hj (fits_str _ _) h2)))
    (fitsAll_fld (req_fits (keeps_url _) hs hj h3)))
    (fitsAll_fld (dflt_fits (ClientCapabilities.keeps (by omega)) hs hj (y := ClientCapabilities.default) (ClientCapabilities.keeps (by omega) _ _ ClientCapabilities.dec_default (fits_mono (a := 2) (by omega) (fits_obj.2 (fitsAll_fld (k := "languageIds") (fits_nil (by omega)))))) h4)))
    (fitsAll_skipNone (dflt_opt_fits (keeps_value _) hs hj h5)))

theorem plain_of_dec [Ext] {j : Json} {x : InitializeBuild} (h : dec j = some x) : Payload.Plain .initializeBuild x := by
  obtain ⟨s, hs, h0, h1, h2, h3, h4, h5⟩ := dec_inv h
  exact dflt_value_plain h5

end InitializeBuild

/-! ### BuildTargetCleanCache -/

namespace BuildTargetCleanCache

theorem dec_inv [Ext] {j : Json} {x : BuildTargetCleanCache} (h : dec j = some x) :
    ∃ s, structSrc fields j = some s ∧ s.req 0 "targets" (decList BuildTargetIdentifier.dec) = some x.targets := by
  simp only [dec, Option.bind_eq_bind, Option.bind_eq_some_iff] at h
  obtain ⟨s, hs, a0, h0, e⟩ := h
  cases e
  exact ⟨s, hs, h0⟩

theorem keeps [Ext] {d : Nat} (hd : 3 ≤ d) : Keeps d dec enc := by
  intro j x h hj
  obtain ⟨d, rfl⟩ : ∃ e, d = e + 1 := ⟨d - 1, by omega⟩
  obtain ⟨s, hs, h0⟩ := dec_inv h
  exact fits_obj.2 (fitsAll_fld (req_fits (keeps_list' (by omega) (BuildTargetIdentifier.keeps (by omega))) hs hj h0))

end BuildTargetCleanCache

/-! ### BuildTargetDependencyModules -/

namespace BuildTargetDependencyModules

theorem dec_inv [Ext] {j : Json} {x : BuildTargetDependencyModules} (h : dec j = some x) :
    ∃ s, structSrc fields j = some s ∧ s.req 0 "targets" (decList BuildTargetIdentifier.dec) = some x.targets := by
  simp only [dec, Option.bind_eq_bind, Option.bind_eq_some_iff] at h
  obtain ⟨s, hs, a0, h0, e⟩ := h
  cases e
  exact ⟨s, hs, h0⟩

theorem keeps [Ext] {d : Nat} (hd : 3 ≤ d) : Keeps d dec enc := by
  intro j x h hj
  obtain ⟨d, rfl⟩ : ∃ e, d = e + 1 := ⟨d - 1, by omega⟩
  obtain ⟨s, hs, h0⟩ := dec_inv h
  exact fits_obj.2 (fitsAll_fld (req_fits (keeps_list' (by omega) (BuildTargetIdentifier.keeps (by omega))) hs hj h0))

end BuildTargetDependencyModules

/-! ### BuildTargetResources -/

namespace BuildTargetResources

theorem dec_inv [Ext] {j : Json} {x : BuildTargetResources} (h : dec j = some x) :
    ∃ s, structSrc fields j = some s ∧ s.req 0 "targets" (decList BuildTargetIdentifier.dec) = some x.targets := by
  simp only [dec, Option.bind_eq_bind, Option.bind_eq_some_iff] at h
  obtain ⟨s, hs, a0, h0, e⟩ := h
  cases e
  exact ⟨s, hs, h0⟩

theorem keeps [Ext] {d : Nat} (hd : 3 ≤ d) : Keeps d dec enc := by
  intro j x h hj
  obtain ⟨d, rfl⟩ : ∃ e, d = e + 1 := ⟨d - 1, by omega⟩
  obtain ⟨s, hs, h0⟩ := dec_inv h
  exact fits_obj.2 (fitsAll_fld (req_fits (keeps_list' (by omega) (BuildTargetIdentifier.keeps (by omega))) hs hj h0))

end BuildTargetResources

/-! ### BuildTargetSources -/

namespace BuildTargetSources

theorem dec_inv [Ext] {j : Json} {x : BuildTargetSources} (h : dec j = some x) :
    ∃ s, structSrc fields j = some s ∧ s.req 0 "targets" (decList BuildTargetIdentifier.dec) = some x.targets := by
  simp only [dec, Option.bind_eq_bind, Option.bind_eq_some_iff] at h
  obtain ⟨s, hs, a0, h0, e⟩ := h
  cases e
  exact ⟨s, hs, h0⟩

theorem keeps [Ext] {d : Nat} (hd : 3 ≤ d) : Keeps d dec enc := by
  intro j x h hj
  obtain ⟨d, rfl⟩ : ∃ e, d = e + 1 := ⟨d - 1, by omega⟩
  obtain ⟨s, hs, h0⟩ := dec_inv h
  exact fits_obj.2 (fitsAll_fld (req_fits (keeps_list' (by omega) (BuildTargetIdentifier.keeps (by omega))) hs hj h0))

end BuildTargetSources

/-! ### BuildTargetCompile -/

namespace BuildTargetCompile

theorem dec_inv [Ext] {j : Json} {x : BuildTargetCompile} (h : dec j = some x) :
    ∃ s, structSrc fields j = some s ∧ s.req 0 "target" BuildTargetIdentifier.dec = some x.target ∧
      s.opt 1 "originId" decStr = some x.originId ∧
      s.opt 2 "arguments" decStr = some x.arguments := by
  simp only [dec, Option.bind_eq_bind, Option.bind_eq_some_iff] at h
  obtain ⟨s, hs, a0, h0, a1, h1, a2, h2, e⟩ := h
  cases e
  exact ⟨s, hs, h0, h1, h2⟩

theorem keeps [Ext] {d : Nat} (hd : 2 ≤ d) : Keeps d dec enc := by
  intro j x h hj
  obtain ⟨d, rfl⟩ : ∃ e, d = e + 1 := ⟨d - 1, by omega⟩
  obtain ⟨s, hs, h0, h1, h2⟩ := dec_inv h
  exact fits_obj.2 (fitsAll_append (fitsAll_append (fitsAll_fld (req_fits (BuildTargetIdentifier.keeps (by omega)) hs hj h0))
    (fitsAll_skipNone (opt_fits (keeps_str _) hs hj h1)))
    (fitsAll_skipNone (opt_fits (keeps_str _) hs hj h2)))

end BuildTargetCompile

/-! ### BuildTargetRun -/

namespace BuildTargetRun

theorem dec_inv [Ext] {j : Json} {x : BuildTargetRun} (h : dec j = some x) :
    ∃ s, structSrc fields j = some s ∧ s.req 0 "target" BuildTargetIdentifier.dec = some x.target ∧
      s.opt 1 "originId" decStr = some x.originId ∧
      s.opt 2 "arguments" decStr = some x.arguments ∧
      s.opt 3 "dataKind" decStr = some x.dataKind ∧
      s.opt 4 "data" decValue = some x.data := by
  simp only [dec, Option.bind_eq_bind, Option.bind_eq_some_iff] at h
  obtain ⟨s, hs, a0, h0, a1, h1, a2, h2, a3, h3, a4, h4, e⟩ := h
  cases e
  exact ⟨s, hs, h0, h1, h2, h3, h4⟩

theorem keeps [Ext] {d : Nat} (hd : 2 ≤ d) : Keeps d dec enc := by
  intro j x h hj
  obtain ⟨d, rfl⟩ : ∃ e, d = e + 1 := ⟨d - 1, by omega⟩
  obtain ⟨s, hs, h0, h1, h2, h3, h4⟩ := dec_inv h
  exact fits_obj.2 (fitsAll_append (fitsAll_append (fitsAll_append (fitsAll_append (fitsAll_fld (req_fits (BuildTargetIdentifier.keeps (by omega)) hs hj h0))
    (fitsAll_skipNone (opt_fits (keeps_str _) hs hj h1)))
    (fitsAll_skipNone (opt_fits (keeps_str _) hs hj h2)))
    (fitsAll_skipNone (opt_fits (keeps_str _) hs hj h3)))
    (fitsAll_skipNone (opt_fits (keeps_value _) hs hj h4)))

theorem plain_of_dec [Ext] {j : Json} {x : BuildTargetRun} (h : dec j = some x) : Payload.Plain .buildTargetRun x := by
  obtain ⟨s, hs, h0, h1, h2, h3, h4⟩ := dec_inv h
  exact opt_value_plain h4

end BuildTargetRun

/-! ### BuildTargetTest -/

namespace BuildTargetTest

theorem dec_inv [Ext] {j : Json} {x : BuildTargetTest} (h : dec j = some x) :
    ∃ s, structSrc fields j = some s ∧ s.req 0 "target" BuildTargetIdentifier.dec = some x.target ∧
      s.opt 1 "originId" decStr = some x.originId ∧
      s.opt 2 "arguments" decStr = some x.arguments ∧
      s.opt 3 "dataKind" decStr = some x.dataKind ∧
      s.opt 4 "data" decValue = some x.data := by
  simp only [dec, Option.bind_eq_bind, Option.bind_eq_some_iff] at h
  obtain ⟨s, hs, a0, h0, a1, h1, a2, h2, a3, h3, a4, h4, e⟩ := h
  cases e
  exact ⟨s, hs, h0, h1, h2, h3, h4⟩

theorem keeps [Ext] {d : Nat} (hd : 2 ≤ d) : Keeps d dec enc := by
  intro j x h hj
  obtain ⟨d, rfl⟩ : ∃ e, d = e + 1 := ⟨d - 1, by omega⟩
  obtain ⟨s, hs, h0, h1, h2, h3, h4⟩ := dec_inv h
  exact fits_obj.2 (fitsAll_append (fitsAll_append (fitsAll_append (fitsAll_append (fitsAll_fld (req_fits (BuildTargetIdentifier.keeps (by omega)) hs hj h0))
    (fitsAll_skipNone (opt_fits (keeps_str _) hs hj h1)))
    (fitsAll_skipNone (opt_fits (keeps_str _) hs hj h2)))
    (fitsAll_skipNone (opt_fits (keeps_str _) hs hj h3)))
    (fitsAll_skipNone (opt_fits (keeps_value _) hs hj h4)))

theorem plain_of_dec [Ext] {j : Json} {x : BuildTargetTest} (h : dec j = some x) : Payload.Plain .buildTargetTest x := by
  obtain ⟨s, hs, h0, h1, h2, h3, h4⟩ := dec_inv h
  exact opt_value_plain h4

end BuildTargetTest

/-! ### BuildTargetDependencySources -/

namespace BuildTargetDependencySources

theorem dec_inv [Ext] {j : Json} {x : BuildTargetDependencySources} (h : dec j = some x) :
    ∃ s, structSrc fields j = some s ∧ s.req 0 "textDocument" TextDocumentIdentifier.dec = some x.textDocument := by
  simp only [dec, Option.bind_eq_bind, Option.bind_eq_some_iff] at h
  obtain ⟨s, hs, a0, h0, e⟩ := h
  cases e
  exact ⟨s, hs, h0⟩

theorem keeps [Ext] {d : Nat} (hd : 2 ≤ d) : Keeps d dec enc := by
  intro j x h hj
  obtain ⟨d, rfl⟩ : ∃ e, d = e + 1 := ⟨d - 1, by omega⟩
  obtain ⟨s, hs, h0⟩ := dec_inv h
  exact fits_obj.2 (fitsAll_fld (req_fits (TextDocumentIdentifier.keeps (by omega)) hs hj h0))

end BuildTargetDependencySources

/-! ### TextDocumentInverseSources -/

namespace TextDocumentInverseSources

theorem dec_inv [Ext] {j : Json} {x : TextDocumentInverseSources} (h : dec j = some x) :
    ∃ s, structSrc fields j = some s ∧ s.req 0 "textDocument" TextDocumentIdentifier.dec = some x.textDocument := by
  simp only [dec, Option.bind_eq_bind, Option.bind_eq_some_iff] at h
  obtain ⟨s, hs, a0, h0, e⟩ := h
  cases e
  exact ⟨s, hs, h0⟩

theorem keeps [Ext] {d : Nat} (hd : 2 ≤ d) : Keeps d dec enc := by
  intro j x h hj
  obtain ⟨d, rfl⟩ : ∃ e, d = e + 1 := ⟨d - 1, by omega⟩
  obtain ⟨s, hs, h0⟩ := dec_inv h
  exact fits_obj.2 (fitsAll_fld (req_fits (TextDocumentIdentifier.keeps (by omega)) hs hj h0))

end TextDocumentInverseSources

/-! ### DebugSessionStart -/

namespace DebugSessionStart

theorem dec_inv [Ext] {j : Json} {x : DebugSessionStart} (h : dec j = some x) :
    ∃ s, structSrc fields j = some s ∧ s.dflt 0 "targets" [] (decList BuildTargetIdentifier.dec) = some x.targets ∧
      s.dflt 1 "dataKind" "" decStr = some x.dataKind ∧
      s.dflt 2 "data" Value.null decValue = some x.data := by
  simp only [dec, Option.bind_eq_bind, Option.bind_eq_some_iff] at h
  obtain ⟨s, hs, a0, h0, a1, h1, a2, h2, e⟩ := h
  cases e
  exact ⟨s, hs, h0, h1, h2⟩

theorem keeps [Ext] {d : Nat} (hd : 3 ≤ d) : Keeps d dec enc := by
  intro j x h hj
  obtain ⟨d, rfl⟩ : ∃ e, d = e + 1 := ⟨d - 1, by omega⟩
  obtain ⟨s, hs, h0, h1, h2⟩ := dec_inv h
  exact fits_obj.2 (fitsAll_append (fitsAll_append (fitsAll_fld (dflt_fits (keeps_list' (by omega) (BuildTargetIdentifier.keeps (by omega))) hs hj (fits_nil (by omega)) h0))
    (fitsAll_fld (dflt_fits (keeps_str _) hs hj (fits_str _ _) h1)))
    (fitsAll_skipIf (dflt_fits (keeps_value _) hs hj (y := Value.null) (fits_null _) h2)))

end DebugSessionStart

/-! ### TaskId -/

namespace TaskId

theorem dec_inv {j : Json} {x : TaskId} (h : dec j = some x) :
    ∃ s, structSrc fields j = some s ∧ s.dflt 0 "id" "" decStr = some x.id ∧
      s.dflt 1 "parents" [] (decList decStr) = some x.parents := by
  simp only [dec, Option.bind_eq_bind, Option.bind_eq_some_iff] at h
  obtain ⟨s, hs, a0, h0, a1, h1, e⟩ := h
  cases e
  exact ⟨s, hs, h0, h1⟩

theorem keeps {d : Nat} (hd : 2 ≤ d) : Keeps d dec enc := by
  intro j x h hj
  obtain ⟨d, rfl⟩ : ∃ e, d = e + 1 := ⟨d - 1, by omega⟩
  obtain ⟨s, hs, h0, h1⟩ := dec_inv h
  exact fits_obj.2 (fitsAll_append (fitsAll_fld (dflt_fits (keeps_str _) hs hj (fits_str _ _) h0))
    (fitsAll_skipIf (dflt_fits (keeps_list' (by omega) (keeps_str _)) hs hj (fits_nil (by omega)) h1)))

end TaskId

/-! ### ShowMessage -/

namespace ShowMessage

theorem dec_inv {j : Json} {x : ShowMessage} (h : dec j = some x) :
    ∃ s, structSrc fields j = some s ∧ s.req 0 "type" MessageType.dec = some x.typ ∧
      s.req 1 "message" decStr = some x.message ∧
      s.opt 2 "task" TaskId.dec = some x.task ∧
      s.opt 3 "originId" decStr = some x.originId := by
  simp only [dec, Option.bind_eq_bind, Option.bind_eq_some_iff] at h
  obtain ⟨s, hs, a0, h0, a1, h1, a2, h2, a3, h3, e⟩ := h
  cases e
  exact ⟨s, hs, h0, h1, h2, h3⟩

theorem keeps {d : Nat} (hd : 3 ≤ d) : Keeps d dec enc := by
  intro j x h hj
  obtain ⟨d, rfl⟩ : ∃ e, d = e + 1 := ⟨d - 1, by omega⟩
  obtain ⟨s, hs, h0, h1, h2, h3⟩ := dec_inv h
  exact fits_obj.2 (fitsAll_append (fitsAll_append (fitsAll_append (fitsAll_fld (req_fits (keeps_messageType _) hs hj h0))
    (fitsAll_fld (req_fits (keeps_str _) hs hj h1)))
    (fitsAll_skipNone (opt_fits (TaskId.keeps (by omega)) hs hj h2)))
    (fitsAll_skipNone (opt_fits (keeps_str _) hs hj h3)))

end ShowMessage

/-! ### LogMessage -/

namespace LogMessage

theorem dec_inv {j : Json} {x : LogMessage} (h : dec j = some x) :
    ∃ s, structSrc fields j = some s ∧ s.req 0 "type" MessageType.dec = some x.typ ∧
      s.opt 1 "task" TaskId.dec = some x.task ∧
      s.opt 2 "originId" decStr = some x.originId ∧
      s.req 3 "message" decStr = some x.message := by
  simp only [dec, Option.bind_eq_bind, Option.bind_eq_some_iff] at h
  obtain ⟨s, hs, a0, h0, a1, h1, a2, h2, a3, h3, e⟩ := h
  cases e
  exact ⟨s, hs, h0, h1, h2, h3⟩

theorem keeps {d : Nat} (hd : 3 ≤ d) : Keeps d dec enc := by
  intro j x h hj
  obtain ⟨d, rfl⟩ : ∃ e, d = e + 1 := ⟨d - 1, by omega⟩
  obtain ⟨s, hs, h0, h1, h2, h3⟩ := dec_inv h
  exact fits_obj.2 (fitsAll_append (fitsAll_append (fitsAll_append (fitsAll_fld (req_fits (keeps_messageType _) hs hj h0))
    (fitsAll_skipNone (opt_fits (TaskId.keeps (by omega)) hs hj h1)))
    (fitsAll_skipNone (opt_fits (keeps_str _) hs hj h2)))
    (fitsAll_fld (req_fits (keeps_str _) hs hj h3)))

end LogMessage

/-! ### Position -/

namespace Position

theorem dec_inv {j : Json} {x : Position} (h : dec j = some x) :
    ∃ s, structSrc fields j = some s ∧ s.req 0 "line" decU32 = some x.line ∧
      s.req 1 "character" decU32 = some x.character := by
  simp only [dec, Option.bind_eq_bind, Option.bind_eq_some_iff] at h
  obtain ⟨s, hs, a0, h0, a1, h1, e⟩ := h
  cases e
  exact ⟨s, hs, h0, h1⟩

theorem keeps {d : Nat} (hd : 1 ≤ d) : Keeps d dec enc := by
  intro j x h hj
  obtain ⟨d, rfl⟩ : ∃ e, d = e + 1 := ⟨d - 1, by omega⟩
  obtain ⟨s, hs, h0, h1⟩ := dec_inv h
  exact fits_obj.2 (fitsAll_append (fitsAll_fld (req_fits (keeps_u32 _) hs hj h0))
    (fitsAll_fld (req_fits (keeps_u32 _) hs hj h1)))

end Position

/-! ### Range -/

namespace Range

theorem dec_inv {j : Json} {x : Range} (h : dec j = some x) :
    ∃ s, structSrc fields j = some s ∧ s.req 0 "start" Position.dec = some x.start ∧
      s.req 1 "end" Position.dec = some x.end_ := by
  simp only [dec, Option.bind_eq_bind, Option.bind_eq_some_iff] at h
  obtain ⟨s, hs, a0, h0, a1, h1, e⟩ := h
  cases e
  exact ⟨s, hs, h0, h1⟩

theorem keeps {d : Nat} (hd : 2 ≤ d) : Keeps d dec enc := by
  intro j x h hj
  obtain ⟨d, rfl⟩ : ∃ e, d = e + 1 := ⟨d - 1, by omega⟩
  obtain ⟨s, hs, h0, h1⟩ := dec_inv h
  exact fits_obj.2 (fitsAll_append (fitsAll_fld (req_fits (Position.keeps (by omega)) hs hj h0))
    (fitsAll_fld (req_fits (Position.keeps (by omega)) hs hj h1)))

end Range

/-! ### CodeDescription -/

namespace CodeDescription

theorem dec_inv [Ext] {j : Json} {x : CodeDescription} (h : dec j = some x) :
    ∃ s, structSrc fields j = some s ∧ s.req 0 "href" decUrl = some x.href := by
  simp only [dec, Option.bind_eq_bind, Option.bind_eq_some_iff] at h
  obtain ⟨s, hs, a0, h0, e⟩ := h
  cases e
  exact ⟨s, hs, h0⟩

theorem keeps [Ext] {d : Nat} (hd : 1 ≤ d) : Keeps d dec enc := by
  intro j x h hj
  obtain ⟨d, rfl⟩ : ∃ e, d = e + 1 := ⟨d - 1, by omega⟩
  obtain ⟨s, hs, h0⟩ := dec_inv h
  exact fits_obj.2 (fitsAll_fld (req_fits (keeps_url _) hs hj h0))

end CodeDescription

/-! ### Location -/

namespace Location

theorem dec_inv [Ext] {j : Json} {x : Location} (h : dec j = some x) :
    ∃ s, structSrc fields j = some s ∧ s.req 0 "uri" decUrl = some x.uri ∧
      s.req 1 "range" Range.dec = some x.range := by
  simp only [dec, Option.bind_eq_bind, Option.bind_eq_some_iff] at h
  obtain ⟨s, hs, a0, h0, a1, h1, e⟩ := h
  cases e
  exact ⟨s, hs, h0, h1⟩

theorem keeps [Ext] {d : Nat} (hd : 3 ≤ d) : Keeps d dec enc := by
  intro j x h hj
  obtain ⟨d, rfl⟩ : ∃ e, d = e + 1 := ⟨d - 1, by omega⟩
  obtain ⟨s, hs, h0, h1⟩ := dec_inv h
  exact fits_obj.2 (fitsAll_append (fitsAll_fld (req_fits (keeps_url _) hs hj h0))
    (fitsAll_fld (req_fits (Range.keeps (by omega)) hs hj h1)))

end Location

/-! ### DiagnosticRelatedInformation -/

namespace DiagnosticRelatedInformation

theorem dec_inv [Ext] {j : Json} {x : DiagnosticRelatedInformation} (h : dec j = some x) :
    ∃ s, structSrc fields j = some s ∧ s.req 0 "location" Location.dec = some x.location ∧
      s.req 1 "message" decStr = some x.message := by
  simp only [dec, Option.bind_eq_bind, Option.bind_eq_some_iff] at h
  obtain ⟨s, hs, a0, h0, a1, h1, e⟩ := h
  cases e
  exact ⟨s, hs, h0, h1⟩

theorem keeps [Ext] {d : Nat} (hd : 4 ≤ d) : Keeps d dec enc := by
  intro j x h hj
  obtain ⟨d, rfl⟩ : ∃ e, d = e + 1 := ⟨d - 1, by omega⟩
  obtain ⟨s, hs, h0, h1⟩ := dec_inv h
  exact fits_obj.2 (fitsAll_append (fitsAll_fld (req_fits (Location.keeps (by omega)) hs hj h0))
    (fitsAll_fld (req_fits (keeps_str _) hs hj h1)))

end DiagnosticRelatedInformation

/-! ### Diagnostic -/

namespace Diagnostic

theorem dec_inv [Ext] {j : Json} {x : Diagnostic} (h : dec j = some x) :
    ∃ s, structSrc fields j = some s ∧ s.req 0 "range" Range.dec = some x.range ∧
      s.opt 1 "severity" decI32 = some x.severity ∧
      s.opt 2 "code" NumberOrString.dec = some x.code ∧
      s.opt 3 "codeDescription" CodeDescription.dec = some x.codeDescription ∧
      s.opt 4 "source" decStr = some x.source ∧
      s.req 5 "message" decStr = some x.message ∧
      s.opt 6 "relatedInformation" (decList DiagnosticRelatedInformation.dec) = some x.relatedInformation ∧
      s.opt 7 "tags" (decList decI32) = some x.tags ∧
      s.opt 8 "data" decValue = some x.data := by
  simp only [dec, Option.bind_eq_bind, Option.bind_eq_some_iff] at h
  obtain ⟨s, hs, a0, h0, a1, h1, a2, h2, a3, h3, a4, h4, a5, h5, a6, h6, a7, h7, a8, h8, e⟩ := h
  cases e
  exact ⟨s, hs, h0, h1, h2, h3, h4, h5, h6, h7, h8⟩

theorem keeps [Ext] {d : Nat} (hd : 6 ≤ d) : Keeps d dec enc := by
  intro j x h hj
  obtain ⟨d, rfl⟩ : ∃ e, d = e + 1 := ⟨d - 1, by omega⟩
  obtain ⟨s, hs, h0, h1, h2, h3, h4, h5, h6, h7, h8⟩ := dec_inv h
  exact fits_obj.2 (fitsAll_append (fitsAll_append (fitsAll_append (fitsAll_append (fitsAll_append (fitsAll_append (fitsAll_append (fitsAll_append (fitsAll_fld (req_fits (Range.keeps (by omega)) hs hj h0))
    (fitsAll_skipNone (opt_fits (keeps_i32 _) hs hj h1)))
    (fitsAll_skipNone (opt_fits (keeps_numberOrString _) hs hj h2)))
    (fitsAll_skipNone (opt_fits (CodeDescription.keeps (by omega)) hs hj h3)))
    (fitsAll_skipNone (opt_fits (keeps_str _) hs hj h4)))
    (fitsAll_fld (req_fits (keeps_str _) hs hj h5)))
    (fitsAll_skipNone (opt_fits (keeps_list' (by omega) (DiagnosticRelatedInformation.keeps (by omega))) hs hj h6)))
    (fitsAll_skipNone (opt_fits (keeps_list' (by omega) (keeps_i32 _)) hs hj h7)))
    (fitsAll_skipNone (opt_fits (keeps_value _) hs hj h8)))

theorem plain_of_dec [Ext] {j : Json} {x : Diagnostic} (h : dec j = some x) : Payload.Plain .diagnostic x := by
  obtain ⟨s, hs, h0, h1, h2, h3, h4, h5, h6, h7, h8⟩ := dec_inv h
  exact opt_value_plain h8

end Diagnostic

/-! ### PublishDiagnostics -/

namespace PublishDiagnostics

theorem dec_inv [Ext] {j : Json} {x : PublishDiagnostics} (h : dec j = some x) :
    ∃ s, structSrc fields j = some s ∧ s.req 0 "textDocument" TextDocumentIdentifier.dec = some x.textDocument ∧
      s.req 1 "buildTarget" BuildTargetIdentifier.dec = some x.buildTarget ∧
      s.opt 2 "originId" decStr = some x.originId ∧
      s.req 3 "diagnostics" (decList Diagnostic.dec) = some x.diagnostics ∧
      s.req 4 "reset" decBool = some x.reset := by
  simp only [dec, Option.bind_eq_bind, Option.bind_eq_some_iff] at h
  obtain ⟨s, hs, a0, h0, a1, h1, a2, h2, a3, h3, a4, h4, e⟩ := h
  cases e
  exact ⟨s, hs, h0, h1, h2, h3, h4⟩

theorem keeps [Ext] {d : Nat} (hd : 8 ≤ d) : Keeps d dec enc := by
  intro j x h hj
  obtain ⟨d, rfl⟩ : ∃ e, d = e + 1 := ⟨d - 1, by omega⟩
  obtain ⟨s, hs, h0, h1, h2, h3, h4⟩ := dec_inv h
  exact fits_obj.2 (fitsAll_append (fitsAll_append (fitsAll_append (fitsAll_append (fitsAll_fld (req_fits (TextDocumentIdentifier.keeps (by omega)) hs hj h0))
    (fitsAll_fld (req_fits (BuildTargetIdentifier.keeps (by omega)) hs hj h1)))
    (fitsAll_fld (opt_keep_fits (keeps_str _) hs hj h2)))
    (fitsAll_fld (req_fits (keeps_list' (by omega) (Diagnostic.keeps (by omega))) hs hj h3)))
    (fitsAll_fld (req_fits (keeps_bool _) hs hj h4)))

theorem plain_of_dec [Ext] {j : Json} {x : PublishDiagnostics} (h : dec j = some x) : Payload.Plain .publishDiagnostics x := by
  obtain ⟨s, hs, h0, h1, h2, h3, h4⟩ := dec_inv h
  exact req_list_plain (fun _ _ h => Diagnostic.plain_of_dec h) h3

end PublishDiagnostics

/-! ### TaskStart -/

namespace TaskStart

theorem dec_inv {j : Json} {x : TaskStart} (h : dec j = some x) :
    ∃ s, structSrc fields j = some s ∧ s.dflt 0 "taskId" TaskId.default TaskId.dec = some x.taskId ∧
      s.dflt 1 "eventTime" none (decOpt decU32) = some x.eventTime ∧
      s.dflt 2 "message" "" decStr = some x.message ∧
      s.dflt 3 "dataKind" TaskDataKind.none TaskDataKind.dec = some x.dataKind ∧
      s.dflt 4 "data" Value.null decValue = some x.data := by
  simp only [dec, Option.bind_eq_bind, Option.bind_eq_some_iff] at h
  obtain ⟨s, hs, a0, h0, a1, h1, a2, h2, a3, h3, a4, h4, e⟩ := h
  cases e
  exact ⟨s, hs, h0, h1, h2, h3, h4⟩

theorem keeps {d : Nat} (hd : 3 ≤ d) : Keeps d dec enc := by
  intro j x h hj
  obtain ⟨d, rfl⟩ : ∃ e, d = e + 1 := ⟨d - 1, by omega⟩
  obtain ⟨s, hs, h0, h1, h2, h3, h4⟩ := dec_inv h
  exact fits_obj.2 (fitsAll_append (fitsAll_append (fitsAll_append (fitsAll_append (fitsAll_fld (dflt_fits (TaskId.keeps (by omega)) hs hj (y := TaskId.default) (TaskId.keeps (by omega) _ _ TaskId.dec_default (fits_mono (a := 1) (by omega) (fits_obj.2 (fun m hm => by simp at hm)))) h0))
    (fitsAll_skipNone (dflt_opt_fits (keeps_u32 _) hs hj h1)))
    (fitsAll_skipIf (dflt_fits (keeps_str _) hs hj (fits_str _ _) h2)))
    (fitsAll_skipIf (dflt_fits (keeps_kind _) hs hj (y := TaskDataKind.none) (fits_null _) h3)))
    (fitsAll_skipIf (dflt_fits (keeps_value _) hs hj (y := Value.null) (fits_null _) h4)))

theorem plain_of_dec [Ext] {j : Json} {x : TaskStart} (h : dec j = some x) : Payload.Plain .taskStart x := by
  obtain ⟨s, hs, h0, h1, h2, h3, h4⟩ := dec_inv h
  exact dflt_kind_plain h3

end TaskStart

/-! ### TaskFinish -/

namespace TaskFinish

theorem dec_inv {j : Json} {x : TaskFinish} (h : dec j = some x) :
    ∃ s, structSrc fields j = some s ∧ s.dflt 0 "taskId" TaskId.default TaskId.dec = some x.taskId ∧
      s.dflt 1 "eventTime" none (decOpt decU32) = some x.eventTime ∧
      s.dflt 2 "message" "" decStr = some x.message ∧
      s.dflt 3 "status" TaskStatus.ok TaskStatus.dec = some x.status ∧
      s.dflt 4 "dataKind" TaskDataKind.none TaskDataKind.dec = some x.dataKind ∧
      s.dflt 5 "data" Value.null decValue = some x.data := by
  simp only [dec, Option.bind_eq_bind, Option.bind_eq_some_iff] at h
  obtain ⟨s, hs, a0, h0, a1, h1, a2, h2, a3, h3, a4, h4, a5, h5, e⟩ := h
  cases e
  exact ⟨s, hs, h0, h1, h2, h3, h4, h5⟩

theorem keeps {d : Nat} (hd : 3 ≤ d) : Keeps d dec enc := by
  intro j x h hj
  obtain ⟨d, rfl⟩ : ∃ e, d = e + 1 := ⟨d - 1, by omega⟩
  obtain ⟨s, hs, h0, h1, h2, h3, h4, h5⟩ := dec_inv h
  exact fits_obj.2 (fitsAll_append (fitsAll_append (fitsAll_append (fitsAll_append (fitsAll_append (fitsAll_fld (dflt_fits (TaskId.keeps (by omega)) hs hj (y := TaskId.default) (TaskId.keeps (by omega) _ _ TaskId.dec_default (fits_mono (a := 1) (by omega) (fits_obj.2 (fun m hm => by simp at hm)))) h0))
    (fitsAll_skipNone (dflt_opt_fits (keeps_u32 _) hs hj h1)))
    (fitsAll_skipIf (dflt_fits (keeps_str _) hs hj (fits_str _ _) h2)))
    (fitsAll_fld (dflt_fits (keeps_taskStatus _) hs hj (y := TaskStatus.ok) (fits_int _ (by decide) (by decide)) h3)))
    (fitsAll_skipIf (dflt_fits (keeps_kind _) hs hj (y := TaskDataKind.none) (fits_null _) h4)))
    (fitsAll_skipIf (dflt_fits (keeps_value _) hs hj (y := Value.null) (fits_null _) h5)))

theorem plain_of_dec [Ext] {j : Json} {x : TaskFinish} (h : dec j = some x) : Payload.Plain .taskFinish x := by
  obtain ⟨s, hs, h0, h1, h2, h3, h4, h5⟩ := dec_inv h
  exact dflt_kind_plain h4

end TaskFinish

/-! ### TaskProgress -/

namespace TaskProgress

theorem dec_inv {j : Json} {x : TaskProgress} (h : dec j = some x) :
    ∃ s, structSrc fields j = some s ∧ s.dflt 0 "taskId" TaskId.default TaskId.dec = some x.taskId ∧
      s.dflt 1 "eventTime" none (decOpt decU32) = some x.eventTime ∧
      s.dflt 2 "message" "" decStr = some x.message ∧
      s.dflt 3 "total" none (decOpt decU32) = some x.total ∧
      s.dflt 4 "progress" none (decOpt decU32) = some x.progress ∧
      s.dflt 5 "unit" "" decStr = some x.unit ∧
      s.dflt 6 "dataKind" TaskDataKind.none TaskDataKind.dec = some x.dataKind ∧
      s.dflt 7 "data" Value.null decValue = some x.data := by
  simp only [dec, Option.bind_eq_bind, Option.bind_eq_some_iff] at h
  obtain ⟨s, hs, a0, h0, a1, h1, a2, h2, a3, h3, a4, h4, a5, h5, a6, h6, a7, h7, e⟩ := h
  cases e
  exact ⟨s, hs, h0, h1, h2, h3, h4, h5, h6, h7⟩

theorem keeps {d : Nat} (hd : 3 ≤ d) : Keeps d dec enc := by
  intro j x h hj
  obtain ⟨d, rfl⟩ : ∃ e, d = e + 1 := ⟨d - 1, by omega⟩
  obtain ⟨s, hs, h0, h1, h2, h3, h4, h5, h6, h7⟩ := dec_inv h
  exact fits_obj.2 (fitsAll_append (fitsAll_append (fitsAll_append (fitsAll_append (fitsAll_append (fitsAll_append (fitsAll_append (fitsAll_fld (dflt_fits (TaskId.keeps (by omega)) hs hj (y := TaskId.default) (TaskId.keeps (by omega) _ _ TaskId.dec_default (fits_mono (a := 1) (by omega) (fits_obj.2 (fun m hm => by simp at hm)))) h0))
    (fitsAll_skipNone (dflt_opt_fits (keeps_u32 _) hs hj h1)))
    (fitsAll_skipIf (dflt_fits (keeps_str _) hs hj (fits_str _ _) h2)))
    (fitsAll_fld (dflt_fits (keeps_opt (keeps_u32 _)) hs hj (y := none) (fits_null _) h3)))
    (fitsAll_fld (dflt_fits (keeps_opt (keeps_u32 _)) hs hj (y := none) (fits_null _) h4)))
    (fitsAll_skipIf (dflt_fits (keeps_str _) hs hj (fits_str _ _) h5)))
    (fitsAll_skipIf (dflt_fits (keeps_kind _) hs hj (y := TaskDataKind.none) (fits_null _) h6)))
    (fitsAll_skipIf (dflt_fits (keeps_value _) hs hj (y := Value.null) (fits_null _) h7)))

theorem plain_of_dec [Ext] {j : Json} {x : TaskProgress} (h : dec j = some x) : Payload.Plain .taskProgress x := by
  obtain ⟨s, hs, h0, h1, h2, h3, h4, h5, h6, h7⟩ := dec_inv h
  exact dflt_kind_plain h6

end TaskProgress

/-! ### BuildTargetEvent -/

namespace BuildTargetEvent

theorem dec_inv [Ext] {j : Json} {x : BuildTargetEvent} (h : dec j = some x) :
    ∃ s, structSrc fields j = some s ∧ s.req 0 "target" BuildTargetIdentifier.dec = some x.target ∧
      s.opt 1 "kind" BuildTargetEventKind.dec = some x.kind ∧
      s.opt 2 "data" decValue = some x.data := by
  simp only [dec, Option.bind_eq_bind, Option.bind_eq_some_iff] at h
  obtain ⟨s, hs, a0, h0, a1, h1, a2, h2, e⟩ := h
  cases e
  exact ⟨s, hs, h0, h1, h2⟩

theorem keeps [Ext] {d : Nat} (hd : 2 ≤ d) : Keeps d dec enc := by
  intro j x h hj
  obtain ⟨d, rfl⟩ : ∃ e, d = e + 1 := ⟨d - 1, by omega⟩
  obtain ⟨s, hs, h0, h1, h2⟩ := dec_inv h
  exact fits_obj.2 (fitsAll_append (fitsAll_append (fitsAll_fld (req_fits (BuildTargetIdentifier.keeps (by omega)) hs hj h0))
    (fitsAll_skipNone (opt_fits (keeps_buildTargetEventKind _) hs hj h1)))
    (fitsAll_skipNone (opt_fits (keeps_value _) hs hj h2)))

theorem plain_of_dec [Ext] {j : Json} {x : BuildTargetEvent} (h : dec j = some x) : Payload.Plain .buildTargetEvent x := by
  obtain ⟨s, hs, h0, h1, h2⟩ := dec_inv h
  exact opt_value_plain h2

end BuildTargetEvent

/-! ### BuildTargetDidChange -/

namespace BuildTargetDidChange

theorem dec_inv [Ext] {j : Json} {x : BuildTargetDidChange} (h : dec j = some x) :
    ∃ s, structSrc fields j = some s ∧ s.req 0 "changes" (decList BuildTargetEvent.dec) = some x.changes := by
  simp only [dec, Option.bind_eq_bind, Option.bind_eq_some_iff] at h
  obtain ⟨s, hs, a0, h0, e⟩ := h
  cases e
  exact ⟨s, hs, h0⟩

theorem keeps [Ext] {d : Nat} (hd : 4 ≤ d) : Keeps d dec enc := by
  intro j x h hj
  obtain ⟨d, rfl⟩ : ∃ e, d = e + 1 := ⟨d - 1, by omega⟩
  obtain ⟨s, hs, h0⟩ := dec_inv h
  exact fits_obj.2 (fitsAll_fld (req_fits (keeps_list' (by omega) (BuildTargetEvent.keeps (by omega))) hs hj h0))

theorem plain_of_dec [Ext] {j : Json} {x : BuildTargetDidChange} (h : dec j = some x) : Payload.Plain .buildTargetDidChange x := by
  obtain ⟨s, hs, h0⟩ := dec_inv h
  exact req_list_plain (fun _ _ h => BuildTargetEvent.plain_of_dec h) h0

end BuildTargetDidChange

/-! ### CompileProvider -/

namespace CompileProvider

theorem dec_inv {j : Json} {x : CompileProvider} (h : dec j = some x) :
    ∃ s, structSrc fields j = some s ∧ s.req 0 "languageIds" (decList decStr) = some x.languageIds := by
  simp only [dec, Option.bind_eq_bind, Option.bind_eq_some_iff] at h
  obtain ⟨s, hs, a0, h0, e⟩ := h
  cases e
  exact ⟨s, hs, h0⟩

theorem keeps {d : Nat} (hd : 2 ≤ d) : Keeps d dec enc := by
  intro j x h hj
  obtain ⟨d, rfl⟩ : ∃ e, d = e + 1 := ⟨d - 1, by omega⟩
  obtain ⟨s, hs, h0⟩ := dec_inv h
  exact fits_obj.2 (fitsAll_fld (req_fits (keeps_list' (by omega) (keeps_str _)) hs hj h0))

end CompileProvider

/-! ### TestProvider -/

namespace TestProvider

theorem dec_inv {j : Json} {x : TestProvider} (h : dec j = some x) :
    ∃ s, structSrc fields j = some s ∧ s.req 0 "languageIds" (decList decStr) = some x.languageIds := by
  simp only [dec, Option.bind_eq_bind, Option.bind_eq_some_iff] at h
  obtain ⟨s, hs, a0, h0, e⟩ := h
  cases e
  exact ⟨s, hs, h0⟩

theorem keeps {d : Nat} (hd : 2 ≤ d) : Keeps d dec enc := by
  intro j x h hj
  obtain ⟨d, rfl⟩ : ∃ e, d = e + 1 := ⟨d - 1, by omega⟩
  obtain ⟨s, hs, h0⟩ := dec_inv h
  exact fits_obj.2 (fitsAll_fld (req_fits (keeps_list' (by omega) (keeps_str _)) hs hj h0))

end TestProvider

/-! ### RunProvider -/

namespace RunProvider

theorem dec_inv {j : Json} {x : RunProvider} (h : dec j = some x) :
    ∃ s, structSrc fields j = some s ∧ s.req 0 "languageIds" (decList decStr) = some x.languageIds := by
  simp only [dec, Option.bind_eq_bind, Option.bind_eq_some_iff] at h
  obtain ⟨s, hs, a0, h0, e⟩ := h
  cases e
  exact ⟨s, hs, h0⟩

theorem keeps {d : Nat} (hd : 2 ≤ d) : Keeps d dec enc := by
  intro j x h hj
  obtain ⟨d, rfl⟩ : ∃ e, d = e + 1 := ⟨d - 1, by omega⟩
  obtain ⟨s, hs, h0⟩ := dec_inv h
  exact fits_obj.2 (fitsAll_fld (req_fits (keeps_list' (by omega) (keeps_str _)) hs hj h0))

end RunProvider

/-! ### DebugProvider -/

namespace DebugProvider

theorem dec_inv {j : Json} {x : DebugProvider} (h : dec j = some x) :
    ∃ s, structSrc fields j = some s ∧ s.req 0 "languageIds" (decList decStr) = some x.languageIds := by
  simp only [dec, Option.bind_eq_bind, Option.bind_eq_some_iff] at h
  obtain ⟨s, hs, a0, h0, e⟩ := h
  cases e
  exact ⟨s, hs, h0⟩

theorem keeps {d : Nat} (hd : 2 ≤ d) : Keeps d dec enc := by
  intro j x h hj
  obtain ⟨d, rfl⟩ : ∃ e, d = e + 1 := ⟨d - 1, by omega⟩
  obtain ⟨s, hs, h0⟩ := dec_inv h
  exact fits_obj.2 (fitsAll_fld (req_fits (keeps_list' (by omega) (keeps_str _)) hs hj h0))

end DebugProvider

/-! ### ServerCapabilities -/

namespace ServerCapabilities

theorem dec_inv {j : Json} {x : ServerCapabilities} (h : dec j = some x) :
    ∃ s, structSrc fields j = some s ∧ s.opt 0 "compileProvider" CompileProvider.dec = some x.compileProvider ∧
      s.opt 1 "testProvider" TestProvider.dec = some x.testProvider ∧
      s.opt 2 "runProvider" RunProvider.dec = some x.runProvider ∧
      s.opt 3 "debugProvider" DebugProvider.dec = some x.debugProvider ∧
      s.opt 4 "inverseSourcesProvider" decBool = some x.inverseSourcesProvider ∧
      s.opt 5 "dependencySourcesProvider" decBool = some x.dependencySourcesProvider ∧
      s.opt 6 "dependencyModulesProvider" decBool = some x.dependencyModulesProvider ∧
      s.opt 7 "resourcesProvider" decBool = some x.resourcesProvider ∧
      s.opt 8 "canReload" decBool = some x.canReload ∧
      s.opt 9 "buildTargetChangedProvider" decBool = some x.buildTargetChangedProvider := by
  simp only [dec, Option.bind_eq_bind, Option.bind_eq_some_iff] at h
  obtain ⟨s, hs, a0, h0, a1, h1, a2, h2, a3, h3, a4, h4, a5, h5, a6, h6, a7, h7, a8, h8, a9, h9, e⟩ := h
  cases e
  exact ⟨s, hs, h0, h1, h2, h3, h4, h5, h6, h7, h8, h9⟩

theorem keeps {d : Nat} (hd : 3 ≤ d) : Keeps d dec enc := by
  intro j x h hj
  obtain ⟨d, rfl⟩ : ∃ e, d = e + 1 := ⟨d - 1, by omega⟩
  obtain ⟨s, hs, h0, h1, h2, h3, h4, h5, h6, h7, h8, h9⟩ := dec_inv h
  exact fits_obj.2 (fitsAll_append (fitsAll_append (fitsAll_append (fitsAll_append (fitsAll_append (fitsAll_append (fitsAll_append (fitsAll_append (fitsAll_append (fitsAll_skipNone (opt_fits (CompileProvider.keeps (by omega)) hs hj h0))
    (fitsAll_skipNone (opt_fits (TestProvider.keeps (by omega)) hs hj h1)))
    (fitsAll_skipNone (opt_fits (RunProvider.keeps (by omega)) hs hj h2)))
    (fitsAll_skipNone (opt_fits (DebugProvider.keeps (by omega)) hs hj h3)))
    (fitsAll_skipNone (opt_fits (keeps_bool _) hs hj h4)))
    (fitsAll_skipNone (opt_fits (keeps_bool _) hs hj h5)))
    (fitsAll_skipNone (opt_fits (keeps_bool _) hs hj h6)))
    (fitsAll_skipNone (opt_fits (keeps_bool _) hs hj h7)))
    (fitsAll_skipNone (opt_fits (keeps_bool _) hs hj h8)))
    (fitsAll_skipNone (opt_fits (keeps_bool _) hs hj h9)))

end ServerCapabilities

/-! ### InitializeBuildResult -/

namespace InitializeBuildResult

theorem dec_inv {j : Json} {x : InitializeBuildResult} (h : dec j = some x) :
    ∃ s, structSrc fields j = some s ∧ s.req 0 "displayName" decStr = some x.displayName ∧
      s.req 1 "version" decStr = some x.version ∧
      s.req 2 "bspVersion" decStr = some x.bspVersion ∧
      s.req 3 "capabilities" ServerCapabilities.dec = some x.capabilities ∧
      s.opt 4 "data" decValue = some x.data := by
  simp only [dec, Option.bind_eq_bind, Option.bind_eq_some_iff] at h
  obtain ⟨s, hs, a0, h0, a1, h1, a2, h2, a3, h3, a4, h4, e⟩ := h
  cases e
  exact ⟨s, hs, h0, h1, h2, h3, h4⟩

theorem keeps {d : Nat} (hd : 4 ≤ d) : Keeps d dec enc := by
  intro j x h hj
  obtain ⟨d, rfl⟩ : ∃ e, d = e + 1 := ⟨d - 1, by omega⟩
  obtain ⟨s, hs, h0, h1, h2, h3, h4⟩ := dec_inv h
  exact fits_obj.2 (fitsAll_append (fitsAll_append (fitsAll_append (fitsAll_append (fitsAll_fld (req_fits (keeps_str _) hs hj h0))
    (fitsAll_fld (req_fits (keeps_str _) hs hj h1)))
    (fitsAll_fld (req_fits (keeps_str _) hs hj h2)))
    (fitsAll_fld (req_fits (ServerCapabilities.keeps (by omega)) hs hj h3)))
    (fitsAll_skipNone (opt_fits (keeps_value _) hs hj h4)))

theorem plain_of_dec [Ext] {j : Json} {x : InitializeBuildResult} (h : dec j = some x) : Payload.Plain .initializeBuildResult x := by
  obtain ⟨s, hs, h0, h1, h2, h3, h4⟩ := dec_inv h
  exact opt_value_plain h4

end InitializeBuildResult

/-! ### BuildTargetCapabilities -/

namespace BuildTargetCapabilities

theorem dec_inv {j : Json} {x : BuildTargetCapabilities} (h : dec j = some x) :
    ∃ s, structSrc fields j = some s ∧ s.req 0 "canCompile" decBool = some x.canCompile ∧
      s.req 1 "canTest" decBool = some x.canTest ∧
      s.req 2 "canRun" decBool = some x.canRun ∧
      s.req 3 "canDebug" decBool = some x.canDebug := by
  simp only [dec, Option.bind_eq_bind, Option.bind_eq_some_iff] at h
  obtain ⟨s, hs, a0, h0, a1, h1, a2, h2, a3, h3, e⟩ := h
  cases e
  exact ⟨s, hs, h0, h1, h2, h3⟩

theorem keeps {d : Nat} (hd : 1 ≤ d) : Keeps d dec enc := by
  intro j x h hj
  obtain ⟨d, rfl⟩ : ∃ e, d = e + 1 := ⟨d - 1, by omega⟩
  obtain ⟨s, hs, h0, h1, h2, h3⟩ := dec_inv h
  exact fits_obj.2 (fitsAll_append (fitsAll_append (fitsAll_append (fitsAll_fld (req_fits (keeps_bool _) hs hj h0))
    (fitsAll_fld (req_fits (keeps_bool _) hs hj h1)))
    (fitsAll_fld (req_fits (keeps_bool _) hs hj h2)))
    (fitsAll_fld (req_fits (keeps_bool _) hs hj h3)))

end BuildTargetCapabilities

/-! ### BuildTarget -/

namespace BuildTarget

theorem dec_inv [Ext] {j : Json} {x : BuildTarget} (h : dec j = some x) :
    ∃ s, structSrc fields j = some s ∧ s.req 0 "id" BuildTargetIdentifier.dec = some x.id ∧
      s.opt 1 "displayName" decStr = some x.displayName ∧
      s.opt 2 "baseDirectory" decStr = some x.baseDirectory ∧
      s.req 3 "tags" (decList BuildTargetTag.dec) = some x.tags ∧
      s.req 4 "capabilities" BuildTargetCapabilities.dec = some x.capabilities ∧
      s.req 5 "languageIds" (decList decStr) = some x.languageIds ∧
      s.req 6 "dependencies" (decList BuildTargetIdentifier.dec) = some x.dependencies := by
  simp only [dec, Option.bind_eq_bind, Option.bind_eq_some_iff] at h
  obtain ⟨s, hs, a0, h0, a1, h1, a2, h2, a3, h3, a4, h4, a5, h5, a6, h6, e⟩ := h
  cases e
  exact ⟨s, hs, h0, h1, h2, h3, h4, h5, h6⟩

theorem keeps [Ext] {d : Nat} (hd : 3 ≤ d) : Keeps d dec enc := by
  intro j x h hj
  obtain ⟨d, rfl⟩ : ∃ e, d = e + 1 := ⟨d - 1, by omega⟩
  obtain ⟨s, hs, h0, h1, h2, h3, h4, h5, h6⟩ := dec_inv h
  exact fits_obj.2 (fitsAll_append (fitsAll_append (fitsAll_append (fitsAll_append (fitsAll_append (fitsAll_append (fitsAll_fld (req_fits (BuildTargetIdentifier.keeps (by omega)) hs hj h0))
    (fitsAll_skipNone (opt_fits (keeps_str _) hs hj h1)))
    (fitsAll_skipNone (opt_fits (keeps_str _) hs hj h2)))
    (fitsAll_fld (req_fits (keeps_list' (by omega) (keeps_buildTargetTag (by omega))) hs hj h3)))
    (fitsAll_fld (req_fits (BuildTargetCapabilities.keeps (by omega)) hs hj h4)))
    (fitsAll_fld (req_fits (keeps_list' (by omega) (keeps_str _)) hs hj h5)))
    (fitsAll_fld (req_fits (keeps_list' (by omega) (BuildTargetIdentifier.keeps (by omega))) hs hj h6)))

end BuildTarget

/-! ### WorkspaceBuildTargetsResult -/

namespace WorkspaceBuildTargetsResult

theorem dec_inv [Ext] {j : Json} {x : WorkspaceBuildTargetsResult} (h : dec j = some x) :
    ∃ s, structSrc fields j = some s ∧ s.req 0 "targets" (decList BuildTarget.dec) = some x.targets := by
  simp only [dec, Option.bind_eq_bind, Option.bind_eq_some_iff] at h
  obtain ⟨s, hs, a0, h0, e⟩ := h
  cases e
  exact ⟨s, hs, h0⟩

theorem keeps [Ext] {d : Nat} (hd : 5 ≤ d) : Keeps d dec enc := by
  intro j x h hj
  obtain ⟨d, rfl⟩ : ∃ e, d = e + 1 := ⟨d - 1, by omega⟩
  obtain ⟨s, hs, h0⟩ := dec_inv h
  exact fits_obj.2 (fitsAll_fld (req_fits (keeps_list' (by omega) (BuildTarget.keeps (by omega))) hs hj h0))

end WorkspaceBuildTargetsResult

/-! ### DebugSessionStartResult -/

namespace DebugSessionStartResult

theorem dec_inv [Ext] {j : Json} {x : DebugSessionStartResult} (h : dec j = some x) :
    ∃ s, structSrc fields j = some s ∧ s.req 0 "uri" decUrl = some x.uri := by
  simp only [dec, Option.bind_eq_bind, Option.bind_eq_some_iff] at h
  obtain ⟨s, hs, a0, h0, e⟩ := h
  cases e
  exact ⟨s, hs, h0⟩

theorem keeps [Ext] {d : Nat} (hd : 1 ≤ d) : Keeps d dec enc := by
  intro j x h hj
  obtain ⟨d, rfl⟩ : ∃ e, d = e + 1 := ⟨d - 1, by omega⟩
  obtain ⟨s, hs, h0⟩ := dec_inv h
  exact fits_obj.2 (fitsAll_fld (req_fits (keeps_url _) hs hj h0))

end DebugSessionStartResult

/-! ### Sources -/

namespace Sources

theorem dec_inv [Ext] {j : Json} {x : Sources} (h : dec j = some x) :
    ∃ s, structSrc fields j = some s ∧ s.req 0 "uri" decUrl = some x.uri ∧
      s.req 1 "kind" SourceKind.dec = some x.kind ∧
      s.req 2 "generated" decBool = some x.generated := by
  simp only [dec, Option.bind_eq_bind, Option.bind_eq_some_iff] at h
  obtain ⟨s, hs, a0, h0, a1, h1, a2, h2, e⟩ := h
  cases e
  exact ⟨s, hs, h0, h1, h2⟩

theorem keeps [Ext] {d : Nat} (hd : 1 ≤ d) : Keeps d dec enc := by
  intro j x h hj
  obtain ⟨d, rfl⟩ : ∃ e, d = e + 1 := ⟨d - 1, by omega⟩
  obtain ⟨s, hs, h0, h1, h2⟩ := dec_inv h
  exact fits_obj.2 (fitsAll_append (fitsAll_append (fitsAll_fld (req_fits (keeps_url _) hs hj h0))
    (fitsAll_fld (req_fits (keeps_sourceKind _) hs hj h1)))
    (fitsAll_fld (req_fits (keeps_bool _) hs hj h2)))

end Sources

/-! ### SourcesCollection -/

namespace SourcesCollection

theorem dec_inv [Ext] {j : Json} {x : SourcesCollection} (h : dec j = some x) :
    ∃ s, structSrc fields j = some s ∧ s.req 0 "target" BuildTargetIdentifier.dec = some x.target ∧
      s.req 1 "sources" (decList Sources.dec) = some x.sources := by
  simp only [dec, Option.bind_eq_bind, Option.bind_eq_some_iff] at h
  obtain ⟨s, hs, a0, h0, a1, h1, e⟩ := h
  cases e
  exact ⟨s, hs, h0, h1⟩

theorem keeps [Ext] {d : Nat} (hd : 3 ≤ d) : Keeps d dec enc := by
  intro j x h hj
  obtain ⟨d, rfl⟩ : ∃ e, d = e + 1 := ⟨d - 1, by omega⟩
  obtain ⟨s, hs, h0, h1⟩ := dec_inv h
  exact fits_obj.2 (fitsAll_append (fitsAll_fld (req_fits (BuildTargetIdentifier.keeps (by omega)) hs hj h0))
    (fitsAll_fld (req_fits (keeps_list' (by omega) (Sources.keeps (by omega))) hs hj h1)))

end SourcesCollection

/-! ### BuildTargetSourcesResult -/

namespace BuildTargetSourcesResult

theorem dec_inv [Ext] {j : Json} {x : BuildTargetSourcesResult} (h : dec j = some x) :
    ∃ s, structSrc fields j = some s ∧ s.req 0 "items" (decList SourcesCollection.dec) = some x.items := by
  simp only [dec, Option.bind_eq_bind, Option.bind_eq_some_iff] at h
  obtain ⟨s, hs, a0, h0, e⟩ := h
  cases e
  exact ⟨s, hs, h0⟩

theorem keeps [Ext] {d : Nat} (hd : 5 ≤ d) : Keeps d dec enc := by
  intro j x h hj
  obtain ⟨d, rfl⟩ : ∃ e, d = e + 1 := ⟨d - 1, by omega⟩
  obtain ⟨s, hs, h0⟩ := dec_inv h
  exact fits_obj.2 (fitsAll_fld (req_fits (keeps_list' (by omega) (SourcesCollection.keeps (by omega))) hs hj h0))

end BuildTargetSourcesResult

/-! ### BuildTargetCompileResult -/

namespace BuildTargetCompileResult

theorem dec_inv {j : Json} {x : BuildTargetCompileResult} (h : dec j = some x) :
    ∃ s, structSrc fields j = some s ∧ s.opt 0 "originId" decStr = some x.originId ∧
      s.req 1 "statusCode" decUsize = some x.statusCode ∧
      s.opt 2 "dataKind" decStr = some x.dataKind ∧
      s.opt 3 "data" decValue = some x.data := by
  simp only [dec, Option.bind_eq_bind, Option.bind_eq_some_iff] at h
  obtain ⟨s, hs, a0, h0, a1, h1, a2, h2, a3, h3, e⟩ := h
  cases e
  exact ⟨s, hs, h0, h1, h2, h3⟩

theorem keeps {d : Nat} (hd : 1 ≤ d) : Keeps d dec enc := by
  intro j x h hj
  obtain ⟨d, rfl⟩ : ∃ e, d = e + 1 := ⟨d - 1, by omega⟩
  obtain ⟨s, hs, h0, h1, h2, h3⟩ := dec_inv h
  exact fits_obj.2 (fitsAll_append (fitsAll_append (fitsAll_append (fitsAll_skipNone (opt_fits (keeps_str _) hs hj h0))
    (fitsAll_fld (req_fits (keeps_usize _) hs hj h1)))
    (fitsAll_skipNone (opt_fits (keeps_str _) hs hj h2)))
    (fitsAll_skipNone (opt_fits (keeps_value _) hs hj h3)))

theorem plain_of_dec [Ext] {j : Json} {x : BuildTargetCompileResult} (h : dec j = some x) : Payload.Plain .buildTargetCompileResult x := by
  obtain ⟨s, hs, h0, h1, h2, h3⟩ := dec_inv h
  exact opt_value_plain h3

end BuildTargetCompileResult

/-! ### BuildTargetTestResult -/

namespace BuildTargetTestResult

theorem dec_inv {j : Json} {x : BuildTargetTestResult} (h : dec j = some x) :
    ∃ s, structSrc fields j = some s ∧ s.opt 0 "originId" decStr = some x.originId ∧
      s.req 1 "statusCode" decUsize = some x.statusCode ∧
      s.opt 2 "dataKind" decStr = some x.dataKind ∧
      s.opt 3 "data" decValue = some x.data := by
  simp only [dec, Option.bind_eq_bind, Option.bind_eq_some_iff] at h
  obtain ⟨s, hs, a0, h0, a1, h1, a2, h2, a3, h3, e⟩ := h
  cases e
  exact ⟨s, hs, h0, h1, h2, h3⟩

theorem keeps {d : Nat} (hd : 1 ≤ d) : Keeps d dec enc := by
  intro j x h hj
  obtain ⟨d, rfl⟩ : ∃ e, d = e + 1 := ⟨d - 1, by omega⟩
  obtain ⟨s, hs, h0, h1, h2, h3⟩ := dec_inv h
  exact fits_obj.2 (fitsAll_append (fitsAll_append (fitsAll_append (fitsAll_skipNone (opt_fits (keeps_str _) hs hj h0))
    (fitsAll_fld (req_fits (keeps_usize _) hs hj h1)))
    (fitsAll_skipNone (opt_fits (keeps_str _) hs hj h2)))
    (fitsAll_skipNone (opt_fits (keeps_value _) hs hj h3)))

theorem plain_of_dec [Ext] {j : Json} {x : BuildTargetTestResult} (h : dec j = some x) : Payload.Plain .buildTargetTestResult x := by
  obtain ⟨s, hs, h0, h1, h2, h3⟩ := dec_inv h
  exact opt_value_plain h3

end BuildTargetTestResult

/-! ### BuildTargetRunResult -/

namespace BuildTargetRunResult

theorem dec_inv {j : Json} {x : BuildTargetRunResult} (h : dec j = some x) :
    ∃ s, structSrc fields j = some s ∧ s.opt 0 "originId" decStr = some x.originId ∧
      s.req 1 "statusCode" decUsize = some x.statusCode := by
  simp only [dec, Option.bind_eq_bind, Option.bind_eq_some_iff] at h
  obtain ⟨s, hs, a0, h0, a1, h1, e⟩ := h
  cases e
  exact ⟨s, hs, h0, h1⟩

theorem keeps {d : Nat} (hd : 1 ≤ d) : Keeps d dec enc := by
  intro j x h hj
  obtain ⟨d, rfl⟩ : ∃ e, d = e + 1 := ⟨d - 1, by omega⟩
  obtain ⟨s, hs, h0, h1⟩ := dec_inv h
  exact fits_obj.2 (fitsAll_append (fitsAll_skipNone (opt_fits (keeps_str _) hs hj h0))
    (fitsAll_fld (req_fits (keeps_usize _) hs hj h1)))

end BuildTargetRunResult

/-! ### Resources -/

namespace Resources

theorem dec_inv [Ext] {j : Json} {x : Resources} (h : dec j = some x) :
    ∃ s, structSrc fields j = some s ∧ s.req 0 "target" BuildTargetIdentifier.dec = some x.target ∧
      s.req 1 "resources" (decList decStr) = some x.resources := by
  simp only [dec, Option.bind_eq_bind, Option.bind_eq_some_iff] at h
  obtain ⟨s, hs, a0, h0, a1, h1, e⟩ := h
  cases e
  exact ⟨s, hs, h0, h1⟩

theorem keeps [Ext] {d : Nat} (hd : 2 ≤ d) : Keeps d dec enc := by
  intro j x h hj
  obtain ⟨d, rfl⟩ : ∃ e, d = e + 1 := ⟨d - 1, by omega⟩
  obtain ⟨s, hs, h0, h1⟩ := dec_inv h
  exact fits_obj.2 (fitsAll_append (fitsAll_fld (req_fits (BuildTargetIdentifier.keeps (by omega)) hs hj h0))
    (fitsAll_fld (req_fits (keeps_list' (by omega) (keeps_str _)) hs hj h1)))

end Resources

/-! ### BuildTargetResourcesResult -/

namespace BuildTargetResourcesResult

theorem dec_inv [Ext] {j : Json} {x : BuildTargetResourcesResult} (h : dec j = some x) :
    ∃ s, structSrc fields j = some s ∧ s.req 0 "items" (decList Resources.dec) = some x.items := by
  simp only [dec, Option.bind_eq_bind, Option.bind_eq_some_iff] at h
  obtain ⟨s, hs, a0, h0, e⟩ := h
  cases e
  exact ⟨s, hs, h0⟩

theorem keeps [Ext] {d : Nat} (hd : 4 ≤ d) : Keeps d dec enc := by
  intro j x h hj
  obtain ⟨d, rfl⟩ : ∃ e, d = e + 1 := ⟨d - 1, by omega⟩
  obtain ⟨s, hs, h0⟩ := dec_inv h
  exact fits_obj.2 (fitsAll_fld (req_fits (keeps_list' (by omega) (Resources.keeps (by omega))) hs hj h0))

end BuildTargetResourcesResult

/-! ### DependencyModule -/

namespace DependencyModule

theorem dec_inv {j : Json} {x : DependencyModule} (h : dec j = some x) :
    ∃ s, structSrc fields j = some s ∧ s.req 0 "name" decStr = some x.name ∧
      s.req 1 "version" decStr = some x.version ∧
      s.opt 2 "dataKind" decStr = some x.dataKind ∧
      s.opt 3 "data" decValue = some x.data := by
  simp only [dec, Option.bind_eq_bind, Option.bind_eq_some_iff] at h
  obtain ⟨s, hs, a0, h0, a1, h1, a2, h2, a3, h3, e⟩ := h
  cases e
  exact ⟨s, hs, h0, h1, h2, h3⟩

theorem keeps {d : Nat} (hd : 1 ≤ d) : Keeps d dec enc := by
  intro j x h hj
  obtain ⟨d, rfl⟩ : ∃ e, d = e + 1 := ⟨d - 1, by omega⟩
  obtain ⟨s, hs, h0, h1, h2, h3⟩ := dec_inv h
  exact fits_obj.2 (fitsAll_append (fitsAll_append (fitsAll_append (fitsAll_fld (req_fits (keeps_str _) hs hj h0))
    (fitsAll_fld (req_fits (keeps_str _) hs hj h1)))
    (fitsAll_fld (opt_keep_fits (keeps_str _) hs hj h2)))
    (fitsAll_fld (opt_keep_fits (keeps_value _) hs hj h3)))

theorem plain_of_dec [Ext] {j : Json} {x : DependencyModule} (h : dec j = some x) : Payload.Plain .dependencyModule x := by
  obtain ⟨s, hs, h0, h1, h2, h3⟩ := dec_inv h
  exact opt_value_plain h3

end DependencyModule

/-! ### DependencyModulesItem -/

namespace DependencyModulesItem

theorem dec_inv [Ext] {j : Json} {x : DependencyModulesItem} (h : dec j = some x) :
    ∃ s, structSrc fields j = some s ∧ s.req 0 "target" BuildTargetIdentifier.dec = some x.target ∧
      s.req 1 "modules" (decList DependencyModule.dec) = some x.modules := by
  simp only [dec, Option.bind_eq_bind, Option.bind_eq_some_iff] at h
  obtain ⟨s, hs, a0, h0, a1, h1, e⟩ := h
  cases e
  exact ⟨s, hs, h0, h1⟩

theorem keeps [Ext] {d : Nat} (hd : 3 ≤ d) : Keeps d dec enc := by
  intro j x h hj
  obtain ⟨d, rfl⟩ : ∃ e, d = e + 1 := ⟨d - 1, by omega⟩
  obtain ⟨s, hs, h0, h1⟩ := dec_inv h
  exact fits_obj.2 (fitsAll_append (fitsAll_fld (req_fits (BuildTargetIdentifier.keeps (by omega)) hs hj h0))
    (fitsAll_fld (req_fits (keeps_list' (by omega) (DependencyModule.keeps (by omega))) hs hj h1)))

theorem plain_of_dec [Ext] {j : Json} {x : DependencyModulesItem} (h : dec j = some x) : Payload.Plain .dependencyModulesItem x := by
  obtain ⟨s, hs, h0, h1⟩ := dec_inv h
  exact req_list_plain (fun _ _ h => DependencyModule.plain_of_dec h) h1

end DependencyModulesItem

/-! ### BuildTargetDependencyModulesResult -/

namespace BuildTargetDependencyModulesResult

theorem dec_inv [Ext] {j : Json} {x : BuildTargetDependencyModulesResult} (h : dec j = some x) :
    ∃ s, structSrc fields j = some s ∧ s.req 0 "items" (decList DependencyModulesItem.dec) = some x.items := by
  simp only [dec, Option.bind_eq_bind, Option.bind_eq_some_iff] at h
  obtain ⟨s, hs, a0, h0, e⟩ := h
  cases e
  exact ⟨s, hs, h0⟩

theorem keeps [Ext] {d : Nat} (hd : 5 ≤ d) : Keeps d dec enc := by
  intro j x h hj
  obtain ⟨d, rfl⟩ : ∃ e, d = e + 1 := ⟨d - 1, by omega⟩
  obtain ⟨s, hs, h0⟩ := dec_inv h
  exact fits_obj.2 (fitsAll_fld (req_fits (keeps_list' (by omega) (DependencyModulesItem.keeps (by omega))) hs hj h0))

theorem plain_of_dec [Ext] {j : Json} {x : BuildTargetDependencyModulesResult} (h : dec j = some x) : Payload.Plain .buildTargetDependencyModulesResult x := by
  obtain ⟨s, hs, h0⟩ := dec_inv h
  exact req_list_plain (fun _ _ h => DependencyModulesItem.plain_of_dec h) h0

end BuildTargetDependencyModulesResult

/-! ### BuildTargetCleanCacheResult -/

namespace BuildTargetCleanCacheResult

theorem dec_inv {j : Json} {x : BuildTargetCleanCacheResult} (h : dec j = some x) :
    ∃ s, structSrc fields j = some s ∧ s.opt 0 "message" decStr = some x.message ∧
      s.req 1 "cleaned" decBool = some x.cleaned := by
  simp only [dec, Option.bind_eq_bind, Option.bind_eq_some_iff] at h
  obtain ⟨s, hs, a0, h0, a1, h1, e⟩ := h
  cases e
  exact ⟨s, hs, h0, h1⟩

theorem keeps {d : Nat} (hd : 1 ≤ d) : Keeps d dec enc := by
  intro j x h hj
  obtain ⟨d, rfl⟩ : ∃ e, d = e + 1 := ⟨d - 1, by omega⟩
  obtain ⟨s, hs, h0, h1⟩ := dec_inv h
  exact fits_obj.2 (fitsAll_append (fitsAll_skipNone (opt_fits (keeps_str _) hs hj h0))
    (fitsAll_fld (req_fits (keeps_bool _) hs hj h1)))

end BuildTargetCleanCacheResult

/-! ### BuildTargetInverseSourcesResult -/

namespace BuildTargetInverseSourcesResult

theorem dec_inv [Ext] {j : Json} {x : BuildTargetInverseSourcesResult} (h : dec j = some x) :
    ∃ s, structSrc fields j = some s ∧ s.req 0 "targets" (decList BuildTargetIdentifier.dec) = some x.targets := by
  simp only [dec, Option.bind_eq_bind, Option.bind_eq_some_iff] at h
  obtain ⟨s, hs, a0, h0, e⟩ := h
  cases e
  exact ⟨s, hs, h0⟩

theorem keeps [Ext] {d : Nat} (hd : 3 ≤ d) : Keeps d dec enc := by
  intro j x h hj
  obtain ⟨d, rfl⟩ : ∃ e, d = e + 1 := ⟨d - 1, by omega⟩
  obtain ⟨s, hs, h0⟩ := dec_inv h
  exact fits_obj.2 (fitsAll_fld (req_fits (keeps_list' (by omega) (BuildTargetIdentifier.keeps (by omega))) hs hj h0))

end BuildTargetInverseSourcesResult

/-! ### DependencySourcesItem -/

namespace DependencySourcesItem

theorem dec_inv [Ext] {j : Json} {x : DependencySourcesItem} (h : dec j = some x) :
    ∃ s, structSrc fields j = some s ∧ s.req 0 "target" BuildTargetIdentifier.dec = some x.target ∧
      s.req 1 "sources" (decList decStr) = some x.sources := by
  simp only [dec, Option.bind_eq_bind, Option.bind_eq_some_iff] at h
  obtain ⟨s, hs, a0, h0, a1, h1, e⟩ := h
  cases e
  exact ⟨s, hs, h0, h1⟩

theorem keeps [Ext] {d : Nat} (hd : 2 ≤ d) : Keeps d dec enc := by
  intro j x h hj
  obtain ⟨d, rfl⟩ : ∃ e, d = e + 1 := ⟨d - 1, by omega⟩
  obtain ⟨s, hs, h0, h1⟩ := dec_inv h
  exact fits_obj.2 (fitsAll_append (fitsAll_fld (req_fits (BuildTargetIdentifier.keeps (by omega)) hs hj h0))
    (fitsAll_fld (req_fits (keeps_list' (by omega) (keeps_str _)) hs hj h1)))

end DependencySourcesItem

/-! ### BuildTargetDependencySourcesResult -/

namespace BuildTargetDependencySourcesResult

theorem dec_inv [Ext] {j : Json} {x : BuildTargetDependencySourcesResult} (h : dec j = some x) :
    ∃ s, structSrc fields j = some s ∧ s.req 0 "items" (decList DependencySourcesItem.dec) = some x.items := by
  simp only [dec, Option.bind_eq_bind, Option.bind_eq_some_iff] at h
  obtain ⟨s, hs, a0, h0, e⟩ := h
  cases e
  exact ⟨s, hs, h0⟩

theorem keeps [Ext] {d : Nat} (hd : 4 ≤ d) : Keeps d dec enc := by
  intro j x h hj
  obtain ⟨d, rfl⟩ : ∃ e, d = e + 1 := ⟨d - 1, by omega⟩
  obtain ⟨s, hs, h0⟩ := dec_inv h
  exact fits_obj.2 (fitsAll_fld (req_fits (keeps_list' (by omega) (DependencySourcesItem.keeps (by omega))) hs hj h0))

end BuildTargetDependencySourcesResult

theorem Payload.plain_of_dec [Ext] (p : Payload) {j : Json} {x : p.Carrier} (h : p.dec j = some x) : p.Plain x := by
  cases p <;> try trivial
  · exact InitializeBuild.plain_of_dec h
  · exact BuildTargetRun.plain_of_dec h
  · exact BuildTargetTest.plain_of_dec h
  · exact Diagnostic.plain_of_dec h
  · exact PublishDiagnostics.plain_of_dec h
  · exact TaskStart.plain_of_dec h
  · exact TaskFinish.plain_of_dec h
  · exact TaskProgress.plain_of_dec h
  · exact BuildTargetEvent.plain_of_dec h
  · exact BuildTargetDidChange.plain_of_dec h
  · exact InitializeBuildResult.plain_of_dec h
  · exact BuildTargetCompileResult.plain_of_dec h
  · exact BuildTargetTestResult.plain_of_dec h
  · exact DependencyModule.plain_of_dec h
  · exact DependencyModulesItem.plain_of_dec h
  · exact BuildTargetDependencyModulesResult.plain_of_dec h

theorem Payload.keeps [Ext] (p : Payload) {d : Nat} (hd : 10 ≤ d) :
    Keeps d p.dec p.enc := by
  cases p
  · exact BuildTargetIdentifier.keeps (by omega)
  · exact TextDocumentIdentifier.keeps (by omega)
  · exact ClientCapabilities.keeps (by omega)
  · exact InitializeBuild.keeps (by omega)
  · exact BuildTargetCleanCache.keeps (by omega)
  · exact BuildTargetDependencyModules.keeps (by omega)
  · exact BuildTargetResources.keeps (by omega)
  · exact BuildTargetSources.keeps (by omega)
  · exact BuildTargetCompile.keeps (by omega)
  · exact BuildTargetRun.keeps (by omega)
  · exact BuildTargetTest.keeps (by omega)
  · exact BuildTargetDependencySources.keeps (by omega)
  · exact TextDocumentInverseSources.keeps (by omega)
  · exact DebugSessionStart.keeps (by omega)
  · exact TaskId.keeps (by omega)
  · exact ShowMessage.keeps (by omega)
  · exact LogMessage.keeps (by omega)
  · exact Position.keeps (by omega)
  · exact Range.keeps (by omega)
  · exact CodeDescription.keeps (by omega)
  · exact Location.keeps (by omega)
  · exact DiagnosticRelatedInformation.keeps (by omega)
  · exact Diagnostic.keeps (by omega)
  · exact PublishDiagnostics.keeps (by omega)
  · exact TaskStart.keeps (by omega)
  · exact TaskFinish.keeps (by omega)
  · exact TaskProgress.keeps (by omega)
  · exact BuildTargetEvent.keeps (by omega)
  · exact BuildTargetDidChange.keeps (by omega)
  · exact CompileProvider.keeps (by omega)
  · exact TestProvider.keeps (by omega)
  · exact RunProvider.keeps (by omega)
  · exact DebugProvider.keeps (by omega)
  · exact ServerCapabilities.keeps (by omega)
  · exact InitializeBuildResult.keeps (by omega)
  · exact BuildTargetCapabilities.keeps (by omega)
  · exact BuildTarget.keeps (by omega)
  · exact WorkspaceBuildTargetsResult.keeps (by omega)
  · exact DebugSessionStartResult.keeps (by omega)
  · exact Sources.keeps (by omega)
  · exact SourcesCollection.keeps (by omega)
  · exact BuildTargetSourcesResult.keeps (by omega)
  · exact BuildTargetCompileResult.keeps (by omega)
  · exact BuildTargetTestResult.keeps (by omega)
  · exact BuildTargetRunResult.keeps (by omega)
  · exact Resources.keeps (by omega)
  · exact BuildTargetResourcesResult.keeps (by omega)
  · exact DependencyModule.keeps (by omega)
  · exact DependencyModulesItem.keeps (by omega)
  · exact BuildTargetDependencyModulesResult.keeps (by omega)
  · exact BuildTargetCleanCacheResult.keeps (by omega)
  · exact BuildTargetInverseSourcesResult.keeps (by omega)
  · exact DependencySourcesItem.keeps (by omega)
  · exact BuildTargetDependencySourcesResult.keeps (by omega)

end Bsp
