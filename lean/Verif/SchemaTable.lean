/-
The schema of every payload type in the language of Verif/Schema.lean (a table: the members in order, what
their absence means, when they are left out, what they hold), and the proof that the decoders and encoders
of Verif/Types.lean follow it.  Generated by tools/gen_types.py.
-/
import Verif.Schema
import Verif.Received

set_option linter.unusedVariables false
set_option linter.unusedSimpArgs false

namespace Bsp
open Json Spec

/-! ### BuildTargetIdentifier -/

namespace BuildTargetIdentifier

/-- The members. bsp-types/src/bt_identifier.rs:4-7. -/
def tyFields : Fields :=
  .cons "uri" .required none .url <|
  .nil

/-- The schema. bsp-types/src/bt_identifier.rs:4-7. -/
def ty : Ty := .struct tyFields

theorem follows [Ext] : Follows ty dec enc := by
  have g0 : ∀ s : Src, Got s 0 "uri" .required (.url) (s.req 0 "uri" decUrl) (encUrl) :=
    fun s => got_req follows_url s
  refine follows_struct (fields := fields) rfl (fun j h => by simp only [dec, h]; rfl) ?_ ?_
  · intro j s hs
    constructor
    · intro h
      obtain ⟨x, hx⟩ := Option.isSome_iff_exists.1 h
      obtain ⟨s', hs', h0⟩ := dec_inv hx
      cases hs'.symm.trans hs
      exact ⟨(g0 s).ok h0, trivial⟩
    · rintro ⟨o0, -⟩
      obtain ⟨a0, h0⟩ := (g0 s).some o0
      have : dec j = some _ := (bind_of_some hs).trans (bind_of_some h0)
      rw [this]; rfl
  · intro j s x hs hx
    obtain ⟨s', hs', h0⟩ := dec_inv hx
    cases hs'.symm.trans hs
    have e0 : fld "uri" (encUrl x.uri) = put "uri" none (clean (.url) ((s.get 0 "uri").getD Absent.required.tree)) :=
      put_fld ((g0 s).2 _ h0)
    simp only [enc, e0, tyFields, allClean, List.append_assoc, List.append_nil]

end BuildTargetIdentifier

/-! ### TextDocumentIdentifier -/

namespace TextDocumentIdentifier

/-- The members. lsp_types::TextDocumentIdentifier (bt_inverse_sources.rs:1, bt_dependency_sources.rs:16). -/
def tyFields : Fields :=
  .cons "uri" .required none .url <|
  .nil

/-- The schema. lsp_types::TextDocumentIdentifier (bt_inverse_sources.rs:1, bt_dependency_sources.rs:16). -/
def ty : Ty := .struct tyFields

theorem follows [Ext] : Follows ty dec enc := by
  have g0 : ∀ s : Src, Got s 0 "uri" .required (.url) (s.req 0 "uri" decUrl) (encUrl) :=
    fun s => got_req follows_url s
  refine follows_struct (fields := fields) rfl (fun j h => by simp only [dec, h]; rfl) ?_ ?_
  · intro j s hs
    constructor
    · intro h
      obtain ⟨x, hx⟩ := Option.isSome_iff_exists.1 h
      obtain ⟨s', hs', h0⟩ := dec_inv hx
      cases hs'.symm.trans hs
      exact ⟨(g0 s).ok h0, trivial⟩
    · rintro ⟨o0, -⟩
      obtain ⟨a0, h0⟩ := (g0 s).some o0
      have : dec j = some _ := (bind_of_some hs).trans (bind_of_some h0)
      rw [this]; rfl
  · intro j s x hs hx
    obtain ⟨s', hs', h0⟩ := dec_inv hx
    cases hs'.symm.trans hs
    have e0 : fld "uri" (encUrl x.uri) = put "uri" none (clean (.url) ((s.get 0 "uri").getD Absent.required.tree)) :=
      put_fld ((g0 s).2 _ h0)
    simp only [enc, e0, tyFields, allClean, List.append_assoc, List.append_nil]

end TextDocumentIdentifier

/-! ### ClientCapabilities -/

namespace ClientCapabilities

/-- The members. bsp-types/src/client_capabilities.rs:3-11. -/
def tyFields : Fields :=
  .cons "languageIds" .required none (.list .str) <|
  .nil

/-- The schema. bsp-types/src/client_capabilities.rs:3-11. -/
def ty : Ty := .struct tyFields

theorem follows [Ext] : Follows ty dec enc := by
  have g0 : ∀ s : Src, Got s 0 "languageIds" .required (.list .str) (s.req 0 "languageIds" (decList decStr)) (encList Json.str) :=
    fun s => got_req (follows_list follows_str) s
  refine follows_struct (fields := fields) rfl (fun j h => by simp only [dec, h]; rfl) ?_ ?_
  · intro j s hs
    constructor
    · intro h
      obtain ⟨x, hx⟩ := Option.isSome_iff_exists.1 h
      obtain ⟨s', hs', h0⟩ := dec_inv hx
      cases hs'.symm.trans hs
      exact ⟨(g0 s).ok h0, trivial⟩
    · rintro ⟨o0, -⟩
      obtain ⟨a0, h0⟩ := (g0 s).some o0
      have : dec j = some _ := (bind_of_some hs).trans (bind_of_some h0)
      rw [this]; rfl
  · intro j s x hs hx
    obtain ⟨s', hs', h0⟩ := dec_inv hx
    cases hs'.symm.trans hs
    have e0 : fld "languageIds" (encList Json.str x.languageIds) = put "languageIds" none (clean (.list .str) ((s.get 0 "languageIds").getD Absent.required.tree)) :=
      put_fld ((g0 s).2 _ h0)
    simp only [enc, e0, tyFields, allClean, List.append_assoc, List.append_nil]

end ClientCapabilities

/-! ### InitializeBuild -/

namespace InitializeBuild

/-- The members. bsp-types/src/initialize_params.rs:8-39. -/
def tyFields : Fields :=
  .cons "displayName" .required none .str <|
  .cons "version" (.default (.str "")) (some (.str "")) .str <|
  .cons "bspVersion" (.default (.str "")) (some (.str "")) .str <|
  .cons "rootUri" .required none .url <|
  .cons "capabilities" (.default (.obj [("languageIds", .arr [])])) none ClientCapabilities.ty <|
  .cons "data" (.default (.null)) (some (.null)) (.opt .any) <|
  .nil

/-- The schema. bsp-types/src/initialize_params.rs:8-39. -/
def ty : Ty := .struct tyFields

theorem follows [Ext] : Follows ty dec enc := by
  have g0 : ∀ s : Src, Got s 0 "displayName" .required (.str) (s.req 0 "displayName" decStr) (Json.str) :=
    fun s => got_req follows_str s
  have g1 : ∀ s : Src, Got s 1 "version" (.default (.str "")) (.str) (s.dflt 1 "version" "" decStr) (Json.str) :=
    fun s => got_dflt follows_str (by simp [clean]) s
  have g2 : ∀ s : Src, Got s 2 "bspVersion" (.default (.str "")) (.str) (s.dflt 2 "bspVersion" "" decStr) (Json.str) :=
    fun s => got_dflt follows_str (by simp [clean]) s
  have g3 : ∀ s : Src, Got s 3 "rootUri" .required (.url) (s.req 3 "rootUri" decUrl) (encUrl) :=
    fun s => got_req follows_url s
  have g4 : ∀ s : Src, Got s 4 "capabilities" (.default (.obj [("languageIds", .arr [])])) (ClientCapabilities.ty) (s.dflt 4 "capabilities" ClientCapabilities.default ClientCapabilities.dec) (ClientCapabilities.enc) :=
    fun s => got_dflt ClientCapabilities.follows (by simp [ClientCapabilities.enc, ClientCapabilities.default, ClientCapabilities.ty, ClientCapabilities.tyFields, clean, cleanMap, put, fld, List.lookup, encList]) s
  have g5 : ∀ s : Src, Got s 5 "data" (.default (.null)) (.opt .any) (s.dflt 5 "data" none (decOpt decValue)) (encOpt Value.json) :=
    fun s => got_dflt (follows_opt follows_value) (by simp [encOpt, clean]) s
  refine follows_struct (fields := fields) rfl (fun j h => by simp only [dec, h]; rfl) ?_ ?_
  · intro j s hs
    constructor
    · intro h
      obtain ⟨x, hx⟩ := Option.isSome_iff_exists.1 h
      obtain ⟨s', hs', h0, h1, h2, h3, h4, h5⟩ := dec_inv hx
      cases hs'.symm.trans hs
      exact ⟨(g0 s).ok h0, (g1 s).ok h1, (g2 s).ok h2, (g3 s).ok h3, (g4 s).ok h4, (g5 s).ok h5, trivial⟩
    · rintro ⟨o0, o1, o2, o3, o4, o5, -⟩
      obtain ⟨a0, h0⟩ := (g0 s).some o0
      obtain ⟨a1, h1⟩ := (g1 s).some o1
      obtain ⟨a2, h2⟩ := (g2 s).some o2
      obtain ⟨a3, h3⟩ := (g3 s).some o3
      obtain ⟨a4, h4⟩ := (g4 s).some o4
      obtain ⟨a5, h5⟩ := (g5 s).some o5
      have : dec j = some _ := (bind_of_some hs).trans ((bind_of_some h0).trans ((bind_of_some h1).trans ((bind_of_some h2).trans ((bind_of_some h3).trans ((bind_of_some h4).trans (bind_of_some h5))))))
      rw [this]; rfl
  · intro j s x hs hx
    obtain ⟨s', hs', h0, h1, h2, h3, h4, h5⟩ := dec_inv hx
    cases hs'.symm.trans hs
    have e0 : fld "displayName" (Json.str x.displayName) = put "displayName" none (clean (.str) ((s.get 0 "displayName").getD Absent.required.tree)) :=
      put_fld ((g0 s).2 _ h0)
    have e1 : skipIf (x.version == "") "version" (Json.str x.version) = put "version" (some (.str "")) (clean (.str) ((s.get 1 "version").getD (Absent.default (.str "")).tree)) :=
      put_skipIf ((g1 s).2 _ h1) str_empty
    have e2 : skipIf (x.bspVersion == "") "bspVersion" (Json.str x.bspVersion) = put "bspVersion" (some (.str "")) (clean (.str) ((s.get 2 "bspVersion").getD (Absent.default (.str "")).tree)) :=
      put_skipIf ((g2 s).2 _ h2) str_empty
    have e3 : fld "rootUri" (encUrl x.rootUri) = put "rootUri" none (clean (.url) ((s.get 3 "rootUri").getD Absent.required.tree)) :=
      put_fld ((g3 s).2 _ h3)
    have e4 : fld "capabilities" (ClientCapabilities.enc x.capabilities) = put "capabilities" none (clean (ClientCapabilities.ty) ((s.get 4 "capabilities").getD (Absent.default (.obj [("languageIds", .arr [])])).tree)) :=
      put_fld ((g4 s).2 _ h4)
    have e5 : skipNone "data" Value.json x.data = put "data" (some (.null)) (clean (.opt .any) ((s.get 5 "data").getD (Absent.default (.null)).tree)) :=
      put_skipNone ((g5 s).2 _ h5) (fun v hv => Value.json_ne_null (dflt_value_plain h5) hv)
    simp only [enc, e0, e1, e2, e3, e4, e5, tyFields, allClean, List.append_assoc, List.append_nil]

end InitializeBuild

/-! ### BuildTargetCleanCache -/

namespace BuildTargetCleanCache

/-- The members. bsp-types/src/bt_clean_cache.rs:13-17. -/
def tyFields : Fields :=
  .cons "targets" .required none (.list BuildTargetIdentifier.ty) <|
  .nil

/-- The schema. bsp-types/src/bt_clean_cache.rs:13-17. -/
def ty : Ty := .struct tyFields

theorem follows [Ext] : Follows ty dec enc := by
  have g0 : ∀ s : Src, Got s 0 "targets" .required (.list BuildTargetIdentifier.ty) (s.req 0 "targets" (decList BuildTargetIdentifier.dec)) (encList BuildTargetIdentifier.enc) :=
    fun s => got_req (follows_list BuildTargetIdentifier.follows) s
  refine follows_struct (fields := fields) rfl (fun j h => by simp only [dec, h]; rfl) ?_ ?_
  · intro j s hs
    constructor
    · intro h
      obtain ⟨x, hx⟩ := Option.isSome_iff_exists.1 h
      obtain ⟨s', hs', h0⟩ := dec_inv hx
      cases hs'.symm.trans hs
      exact ⟨(g0 s).ok h0, trivial⟩
    · rintro ⟨o0, -⟩
      obtain ⟨a0, h0⟩ := (g0 s).some o0
      have : dec j = some _ := (bind_of_some hs).trans (bind_of_some h0)
      rw [this]; rfl
  · intro j s x hs hx
    obtain ⟨s', hs', h0⟩ := dec_inv hx
    cases hs'.symm.trans hs
    have e0 : fld "targets" (encList BuildTargetIdentifier.enc x.targets) = put "targets" none (clean (.list BuildTargetIdentifier.ty) ((s.get 0 "targets").getD Absent.required.tree)) :=
      put_fld ((g0 s).2 _ h0)
    simp only [enc, e0, tyFields, allClean, List.append_assoc, List.append_nil]

end BuildTargetCleanCache

/-! ### BuildTargetDependencyModules -/

namespace BuildTargetDependencyModules

/-- The members. bsp-types/src/bt_dependency_modules.rs:8-12. -/
def tyFields : Fields :=
  .cons "targets" .required none (.list BuildTargetIdentifier.ty) <|
  .nil

/-- The schema. bsp-types/src/bt_dependency_modules.rs:8-12. -/
def ty : Ty := .struct tyFields

theorem follows [Ext] : Follows ty dec enc := by
  have g0 : ∀ s : Src, Got s 0 "targets" .required (.list BuildTargetIdentifier.ty) (s.req 0 "targets" (decList BuildTargetIdentifier.dec)) (encList BuildTargetIdentifier.enc) :=
    fun s => got_req (follows_list BuildTargetIdentifier.follows) s
  refine follows_struct (fields := fields) rfl (fun j h => by simp only [dec, h]; rfl) ?_ ?_
  · intro j s hs
    constructor
    · intro h
      obtain ⟨x, hx⟩ := Option.isSome_iff_exists.1 h
      obtain ⟨s', hs', h0⟩ := dec_inv hx
      cases hs'.symm.trans hs
      exact ⟨(g0 s).ok h0, trivial⟩
    · rintro ⟨o0, -⟩
      obtain ⟨a0, h0⟩ := (g0 s).some o0
      have : dec j = some _ := (bind_of_some hs).trans (bind_of_some h0)
      rw [this]; rfl
  · intro j s x hs hx
    obtain ⟨s', hs', h0⟩ := dec_inv hx
    cases hs'.symm.trans hs
    have e0 : fld "targets" (encList BuildTargetIdentifier.enc x.targets) = put "targets" none (clean (.list BuildTargetIdentifier.ty) ((s.get 0 "targets").getD Absent.required.tree)) :=
      put_fld ((g0 s).2 _ h0)
    simp only [enc, e0, tyFields, allClean, List.append_assoc, List.append_nil]

end BuildTargetDependencyModules

/-! ### BuildTargetResources -/

namespace BuildTargetResources

/-- The members. bsp-types/src/bt_resources.rs:11-14. -/
def tyFields : Fields :=
  .cons "targets" .required none (.list BuildTargetIdentifier.ty) <|
  .nil

/-- The schema. bsp-types/src/bt_resources.rs:11-14. -/
def ty : Ty := .struct tyFields

theorem follows [Ext] : Follows ty dec enc := by
  have g0 : ∀ s : Src, Got s 0 "targets" .required (.list BuildTargetIdentifier.ty) (s.req 0 "targets" (decList BuildTargetIdentifier.dec)) (encList BuildTargetIdentifier.enc) :=
    fun s => got_req (follows_list BuildTargetIdentifier.follows) s
  refine follows_struct (fields := fields) rfl (fun j h => by simp only [dec, h]; rfl) ?_ ?_
  · intro j s hs
    constructor
    · intro h
      obtain ⟨x, hx⟩ := Option.isSome_iff_exists.1 h
      obtain ⟨s', hs', h0⟩ := dec_inv hx
      cases hs'.symm.trans hs
      exact ⟨(g0 s).ok h0, trivial⟩
    · rintro ⟨o0, -⟩
      obtain ⟨a0, h0⟩ := (g0 s).some o0
      have : dec j = some _ := (bind_of_some hs).trans (bind_of_some h0)
      rw [this]; rfl
  · intro j s x hs hx
    obtain ⟨s', hs', h0⟩ := dec_inv hx
    cases hs'.symm.trans hs
    have e0 : fld "targets" (encList BuildTargetIdentifier.enc x.targets) = put "targets" none (clean (.list BuildTargetIdentifier.ty) ((s.get 0 "targets").getD Absent.required.tree)) :=
      put_fld ((g0 s).2 _ h0)
    simp only [enc, e0, tyFields, allClean, List.append_assoc, List.append_nil]

end BuildTargetResources

/-! ### BuildTargetSources -/

namespace BuildTargetSources

/-- The members. bsp-types/src/bt_sources.rs:5-12. -/
def tyFields : Fields :=
  .cons "targets" .required none (.list BuildTargetIdentifier.ty) <|
  .nil

/-- The schema. bsp-types/src/bt_sources.rs:5-12. -/
def ty : Ty := .struct tyFields

theorem follows [Ext] : Follows ty dec enc := by
  have g0 : ∀ s : Src, Got s 0 "targets" .required (.list BuildTargetIdentifier.ty) (s.req 0 "targets" (decList BuildTargetIdentifier.dec)) (encList BuildTargetIdentifier.enc) :=
    fun s => got_req (follows_list BuildTargetIdentifier.follows) s
  refine follows_struct (fields := fields) rfl (fun j h => by simp only [dec, h]; rfl) ?_ ?_
  · intro j s hs
    constructor
    · intro h
      obtain ⟨x, hx⟩ := Option.isSome_iff_exists.1 h
      obtain ⟨s', hs', h0⟩ := dec_inv hx
      cases hs'.symm.trans hs
      exact ⟨(g0 s).ok h0, trivial⟩
    · rintro ⟨o0, -⟩
      obtain ⟨a0, h0⟩ := (g0 s).some o0
      have : dec j = some _ := (bind_of_some hs).trans (bind_of_some h0)
      rw [this]; rfl
  · intro j s x hs hx
    obtain ⟨s', hs', h0⟩ := dec_inv hx
    cases hs'.symm.trans hs
    have e0 : fld "targets" (encList BuildTargetIdentifier.enc x.targets) = put "targets" none (clean (.list BuildTargetIdentifier.ty) ((s.get 0 "targets").getD Absent.required.tree)) :=
      put_fld ((g0 s).2 _ h0)
    simp only [enc, e0, tyFields, allClean, List.append_assoc, List.append_nil]

end BuildTargetSources

/-! ### BuildTargetCompile -/

namespace BuildTargetCompile

/-- The members. bsp-types/src/bt_compile.rs:7-21. -/
def tyFields : Fields :=
  .cons "target" .required none BuildTargetIdentifier.ty <|
  .cons "originId" .optional (some (.null)) (.opt .str) <|
  .cons "arguments" .optional (some (.null)) (.opt .str) <|
  .nil

/-- The schema. bsp-types/src/bt_compile.rs:7-21. -/
def ty : Ty := .struct tyFields

theorem follows [Ext] : Follows ty dec enc := by
  have g0 : ∀ s : Src, Got s 0 "target" .required (BuildTargetIdentifier.ty) (s.req 0 "target" BuildTargetIdentifier.dec) (BuildTargetIdentifier.enc) :=
    fun s => got_req BuildTargetIdentifier.follows s
  have g1 : ∀ s : Src, Got s 1 "originId" .optional (.opt .str) (s.opt 1 "originId" decStr) (encOpt Json.str) :=
    fun s => got_opt follows_str s
  have g2 : ∀ s : Src, Got s 2 "arguments" .optional (.opt .str) (s.opt 2 "arguments" decStr) (encOpt Json.str) :=
    fun s => got_opt follows_str s
  refine follows_struct (fields := fields) rfl (fun j h => by simp only [dec, h]; rfl) ?_ ?_
  · intro j s hs
    constructor
    · intro h
      obtain ⟨x, hx⟩ := Option.isSome_iff_exists.1 h
      obtain ⟨s', hs', h0, h1, h2⟩ := dec_inv hx
      cases hs'.symm.trans hs
      exact ⟨(g0 s).ok h0, (g1 s).ok h1, (g2 s).ok h2, trivial⟩
    · rintro ⟨o0, o1, o2, -⟩
      obtain ⟨a0, h0⟩ := (g0 s).some o0
      obtain ⟨a1, h1⟩ := (g1 s).some o1
      obtain ⟨a2, h2⟩ := (g2 s).some o2
      have : dec j = some _ := (bind_of_some hs).trans ((bind_of_some h0).trans ((bind_of_some h1).trans (bind_of_some h2)))
      rw [this]; rfl
  · intro j s x hs hx
    obtain ⟨s', hs', h0, h1, h2⟩ := dec_inv hx
    cases hs'.symm.trans hs
    have e0 : fld "target" (BuildTargetIdentifier.enc x.target) = put "target" none (clean (BuildTargetIdentifier.ty) ((s.get 0 "target").getD Absent.required.tree)) :=
      put_fld ((g0 s).2 _ h0)
    have e1 : skipNone "originId" Json.str x.originId = put "originId" (some (.null)) (clean (.opt .str) ((s.get 1 "originId").getD Absent.optional.tree)) :=
      put_skipNone ((g1 s).2 _ h1) (by simp)
    have e2 : skipNone "arguments" Json.str x.arguments = put "arguments" (some (.null)) (clean (.opt .str) ((s.get 2 "arguments").getD Absent.optional.tree)) :=
      put_skipNone ((g2 s).2 _ h2) (by simp)
    simp only [enc, e0, e1, e2, tyFields, allClean, List.append_assoc, List.append_nil]

end BuildTargetCompile

/-! ### BuildTargetRun -/

namespace BuildTargetRun

/-- The members. bsp-types/src/bt_run.rs:7-30. -/
def tyFields : Fields :=
  .cons "target" .required none BuildTargetIdentifier.ty <|
  .cons "originId" .optional (some (.null)) (.opt .str) <|
  .cons "arguments" .optional (some (.null)) (.opt .str) <|
  .cons "dataKind" .optional (some (.null)) (.opt .str) <|
  .cons "data" .optional (some (.null)) (.opt .any) <|
  .nil

/-- The schema. bsp-types/src/bt_run.rs:7-30. -/
def ty : Ty := .struct tyFields

theorem follows [Ext] : Follows ty dec enc := by
  have g0 : ∀ s : Src, Got s 0 "target" .required (BuildTargetIdentifier.ty) (s.req 0 "target" BuildTargetIdentifier.dec) (BuildTargetIdentifier.enc) :=
    fun s => got_req BuildTargetIdentifier.follows s
  have g1 : ∀ s : Src, Got s 1 "originId" .optional (.opt .str) (s.opt 1 "originId" decStr) (encOpt Json.str) :=
    fun s => got_opt follows_str s
  have g2 : ∀ s : Src, Got s 2 "arguments" .optional (.opt .str) (s.opt 2 "arguments" decStr) (encOpt Json.str) :=
    fun s => got_opt follows_str s
  have g3 : ∀ s : Src, Got s 3 "dataKind" .optional (.opt .str) (s.opt 3 "dataKind" decStr) (encOpt Json.str) :=
    fun s => got_opt follows_str s
  have g4 : ∀ s : Src, Got s 4 "data" .optional (.opt .any) (s.opt 4 "data" decValue) (encOpt Value.json) :=
    fun s => got_opt follows_value s
  refine follows_struct (fields := fields) rfl (fun j h => by simp only [dec, h]; rfl) ?_ ?_
  · intro j s hs
    constructor
    · intro h
      obtain ⟨x, hx⟩ := Option.isSome_iff_exists.1 h
      obtain ⟨s', hs', h0, h1, h2, h3, h4⟩ := dec_inv hx
      cases hs'.symm.trans hs
      exact ⟨(g0 s).ok h0, (g1 s).ok h1, (g2 s).ok h2, (g3 s).ok h3, (g4 s).ok h4, trivial⟩
    · rintro ⟨o0, o1, o2, o3, o4, -⟩
      obtain ⟨a0, h0⟩ := (g0 s).some o0
      obtain ⟨a1, h1⟩ := (g1 s).some o1
      obtain ⟨a2, h2⟩ := (g2 s).some o2
      obtain ⟨a3, h3⟩ := (g3 s).some o3
      obtain ⟨a4, h4⟩ := (g4 s).some o4
      have : dec j = some _ := (bind_of_some hs).trans ((bind_of_some h0).trans ((bind_of_some h1).trans ((bind_of_some h2).trans ((bind_of_some h3).trans (bind_of_some h4)))))
      rw [this]; rfl
  · intro j s x hs hx
    obtain ⟨s', hs', h0, h1, h2, h3, h4⟩ := dec_inv hx
    cases hs'.symm.trans hs
    have e0 : fld "target" (BuildTargetIdentifier.enc x.target) = put "target" none (clean (BuildTargetIdentifier.ty) ((s.get 0 "target").getD Absent.required.tree)) :=
      put_fld ((g0 s).2 _ h0)
    have e1 : skipNone "originId" Json.str x.originId = put "originId" (some (.null)) (clean (.opt .str) ((s.get 1 "originId").getD Absent.optional.tree)) :=
      put_skipNone ((g1 s).2 _ h1) (by simp)
    have e2 : skipNone "arguments" Json.str x.arguments = put "arguments" (some (.null)) (clean (.opt .str) ((s.get 2 "arguments").getD Absent.optional.tree)) :=
      put_skipNone ((g2 s).2 _ h2) (by simp)
    have e3 : skipNone "dataKind" Json.str x.dataKind = put "dataKind" (some (.null)) (clean (.opt .str) ((s.get 3 "dataKind").getD Absent.optional.tree)) :=
      put_skipNone ((g3 s).2 _ h3) (by simp)
    have e4 : skipNone "data" Value.json x.data = put "data" (some (.null)) (clean (.opt .any) ((s.get 4 "data").getD Absent.optional.tree)) :=
      put_skipNone ((g4 s).2 _ h4) (fun v hv => Value.json_ne_null (opt_value_plain h4) hv)
    simp only [enc, e0, e1, e2, e3, e4, tyFields, allClean, List.append_assoc, List.append_nil]

end BuildTargetRun

/-! ### BuildTargetTest -/

namespace BuildTargetTest

/-- The members. bsp-types/src/bt_test.rs:8-31. -/
def tyFields : Fields :=
  .cons "target" .required none BuildTargetIdentifier.ty <|
  .cons "originId" .optional (some (.null)) (.opt .str) <|
  .cons "arguments" .optional (some (.null)) (.opt .str) <|
  .cons "dataKind" .optional (some (.null)) (.opt .str) <|
  .cons "data" .optional (some (.null)) (.opt .any) <|
  .nil

/-- The schema. bsp-types/src/bt_test.rs:8-31. -/
def ty : Ty := .struct tyFields

theorem follows [Ext] : Follows ty dec enc := by
  have g0 : ∀ s : Src, Got s 0 "target" .required (BuildTargetIdentifier.ty) (s.req 0 "target" BuildTargetIdentifier.dec) (BuildTargetIdentifier.enc) :=
    fun s => got_req BuildTargetIdentifier.follows s
  have g1 : ∀ s : Src, Got s 1 "originId" .optional (.opt .str) (s.opt 1 "originId" decStr) (encOpt Json.str) :=
    fun s => got_opt follows_str s
  have g2 : ∀ s : Src, Got s 2 "arguments" .optional (.opt .str) (s.opt 2 "arguments" decStr) (encOpt Json.str) :=
    fun s => got_opt follows_str s
  have g3 : ∀ s : Src, Got s 3 "dataKind" .optional (.opt .str) (s.opt 3 "dataKind" decStr) (encOpt Json.str) :=
    fun s => got_opt follows_str s
  have g4 : ∀ s : Src, Got s 4 "data" .optional (.opt .any) (s.opt 4 "data" decValue) (encOpt Value.json) :=
    fun s => got_opt follows_value s
  refine follows_struct (fields := fields) rfl (fun j h => by simp only [dec, h]; rfl) ?_ ?_
  · intro j s hs
    constructor
    · intro h
      obtain ⟨x, hx⟩ := Option.isSome_iff_exists.1 h
      obtain ⟨s', hs', h0, h1, h2, h3, h4⟩ := dec_inv hx
      cases hs'.symm.trans hs
      exact ⟨(g0 s).ok h0, (g1 s).ok h1, (g2 s).ok h2, (g3 s).ok h3, (g4 s).ok h4, trivial⟩
    · rintro ⟨o0, o1, o2, o3, o4, -⟩
      obtain ⟨a0, h0⟩ := (g0 s).some o0
      obtain ⟨a1, h1⟩ := (g1 s).some o1
      obtain ⟨a2, h2⟩ := (g2 s).some o2
      obtain ⟨a3, h3⟩ := (g3 s).some o3
      obtain ⟨a4, h4⟩ := (g4 s).some o4
      have : dec j = some _ := (bind_of_some hs).trans ((bind_of_some h0).trans ((bind_of_some h1).trans ((bind_of_some h2).trans ((bind_of_some h3).trans (bind_of_some h4)))))
      rw [this]; rfl
  · intro j s x hs hx
    obtain ⟨s', hs', h0, h1, h2, h3, h4⟩ := dec_inv hx
    cases hs'.symm.trans hs
    have e0 : fld "target" (BuildTargetIdentifier.enc x.target) = put "target" none (clean (BuildTargetIdentifier.ty) ((s.get 0 "target").getD Absent.required.tree)) :=
      put_fld ((g0 s).2 _ h0)
    have e1 : skipNone "originId" Json.str x.originId = put "originId" (some (.null)) (clean (.opt .str) ((s.get 1 "originId").getD Absent.optional.tree)) :=
      put_skipNone ((g1 s).2 _ h1) (by simp)
    have e2 : skipNone "arguments" Json.str x.arguments = put "arguments" (some (.null)) (clean (.opt .str) ((s.get 2 "arguments").getD Absent.optional.tree)) :=
      put_skipNone ((g2 s).2 _ h2) (by simp)
    have e3 : skipNone "dataKind" Json.str x.dataKind = put "dataKind" (some (.null)) (clean (.opt .str) ((s.get 3 "dataKind").getD Absent.optional.tree)) :=
      put_skipNone ((g3 s).2 _ h3) (by simp)
    have e4 : skipNone "data" Value.json x.data = put "data" (some (.null)) (clean (.opt .any) ((s.get 4 "data").getD Absent.optional.tree)) :=
      put_skipNone ((g4 s).2 _ h4) (fun v hv => Value.json_ne_null (opt_value_plain h4) hv)
    simp only [enc, e0, e1, e2, e3, e4, tyFields, allClean, List.append_assoc, List.append_nil]

end BuildTargetTest

/-! ### BuildTargetDependencySources -/

namespace BuildTargetDependencySources

/-- The members. bsp-types/src/bt_dependency_sources.rs:13-17. -/
def tyFields : Fields :=
  .cons "textDocument" .required none TextDocumentIdentifier.ty <|
  .nil

/-- The schema. bsp-types/src/bt_dependency_sources.rs:13-17. -/
def ty : Ty := .struct tyFields

theorem follows [Ext] : Follows ty dec enc := by
  have g0 : ∀ s : Src, Got s 0 "textDocument" .required (TextDocumentIdentifier.ty) (s.req 0 "textDocument" TextDocumentIdentifier.dec) (TextDocumentIdentifier.enc) :=
    fun s => got_req TextDocumentIdentifier.follows s
  refine follows_struct (fields := fields) rfl (fun j h => by simp only [dec, h]; rfl) ?_ ?_
  · intro j s hs
    constructor
    · intro h
      obtain ⟨x, hx⟩ := Option.isSome_iff_exists.1 h
      obtain ⟨s', hs', h0⟩ := dec_inv hx
      cases hs'.symm.trans hs
      exact ⟨(g0 s).ok h0, trivial⟩
    · rintro ⟨o0, -⟩
      obtain ⟨a0, h0⟩ := (g0 s).some o0
      have : dec j = some _ := (bind_of_some hs).trans (bind_of_some h0)
      rw [this]; rfl
  · intro j s x hs hx
    obtain ⟨s', hs', h0⟩ := dec_inv hx
    cases hs'.symm.trans hs
    have e0 : fld "textDocument" (TextDocumentIdentifier.enc x.textDocument) = put "textDocument" none (clean (TextDocumentIdentifier.ty) ((s.get 0 "textDocument").getD Absent.required.tree)) :=
      put_fld ((g0 s).2 _ h0)
    simp only [enc, e0, tyFields, allClean, List.append_assoc, List.append_nil]

end BuildTargetDependencySources

/-! ### TextDocumentInverseSources -/

namespace TextDocumentInverseSources

/-- The members. bsp-types/src/bt_inverse_sources.rs:10-14. -/
def tyFields : Fields :=
  .cons "textDocument" .required none TextDocumentIdentifier.ty <|
  .nil

/-- The schema. bsp-types/src/bt_inverse_sources.rs:10-14. -/
def ty : Ty := .struct tyFields

theorem follows [Ext] : Follows ty dec enc := by
  have g0 : ∀ s : Src, Got s 0 "textDocument" .required (TextDocumentIdentifier.ty) (s.req 0 "textDocument" TextDocumentIdentifier.dec) (TextDocumentIdentifier.enc) :=
    fun s => got_req TextDocumentIdentifier.follows s
  refine follows_struct (fields := fields) rfl (fun j h => by simp only [dec, h]; rfl) ?_ ?_
  · intro j s hs
    constructor
    · intro h
      obtain ⟨x, hx⟩ := Option.isSome_iff_exists.1 h
      obtain ⟨s', hs', h0⟩ := dec_inv hx
      cases hs'.symm.trans hs
      exact ⟨(g0 s).ok h0, trivial⟩
    · rintro ⟨o0, -⟩
      obtain ⟨a0, h0⟩ := (g0 s).some o0
      have : dec j = some _ := (bind_of_some hs).trans (bind_of_some h0)
      rw [this]; rfl
  · intro j s x hs hx
    obtain ⟨s', hs', h0⟩ := dec_inv hx
    cases hs'.symm.trans hs
    have e0 : fld "textDocument" (TextDocumentIdentifier.enc x.textDocument) = put "textDocument" none (clean (TextDocumentIdentifier.ty) ((s.get 0 "textDocument").getD Absent.required.tree)) :=
      put_fld ((g0 s).2 _ h0)
    simp only [enc, e0, tyFields, allClean, List.append_assoc, List.append_nil]

end TextDocumentInverseSources

/-! ### DebugSessionStart -/

namespace DebugSessionStart

/-- The members. bsp-types/src/debug_session_start.rs:8-22. -/
def tyFields : Fields :=
  .cons "targets" (.default (.arr [])) none (.list BuildTargetIdentifier.ty) <|
  .cons "dataKind" (.default (.str "")) none .str <|
  .cons "data" (.default (.null)) (some (.null)) .any <|
  .nil

/-- The schema. bsp-types/src/debug_session_start.rs:8-22. -/
def ty : Ty := .struct tyFields

theorem follows [Ext] : Follows ty dec enc := by
  have g0 : ∀ s : Src, Got s 0 "targets" (.default (.arr [])) (.list BuildTargetIdentifier.ty) (s.dflt 0 "targets" [] (decList BuildTargetIdentifier.dec)) (encList BuildTargetIdentifier.enc) :=
    fun s => got_dflt (follows_list BuildTargetIdentifier.follows) (by simp [encList, clean]) s
  have g1 : ∀ s : Src, Got s 1 "dataKind" (.default (.str "")) (.str) (s.dflt 1 "dataKind" "" decStr) (Json.str) :=
    fun s => got_dflt follows_str (by simp [clean]) s
  have g2 : ∀ s : Src, Got s 2 "data" (.default (.null)) (.any) (s.dflt 2 "data" Value.null decValue) (Value.json) :=
    fun s => got_dflt follows_value (by simp only [clean, canon_null]; rfl) s
  refine follows_struct (fields := fields) rfl (fun j h => by simp only [dec, h]; rfl) ?_ ?_
  · intro j s hs
    constructor
    · intro h
      obtain ⟨x, hx⟩ := Option.isSome_iff_exists.1 h
      obtain ⟨s', hs', h0, h1, h2⟩ := dec_inv hx
      cases hs'.symm.trans hs
      exact ⟨(g0 s).ok h0, (g1 s).ok h1, (g2 s).ok h2, trivial⟩
    · rintro ⟨o0, o1, o2, -⟩
      obtain ⟨a0, h0⟩ := (g0 s).some o0
      obtain ⟨a1, h1⟩ := (g1 s).some o1
      obtain ⟨a2, h2⟩ := (g2 s).some o2
      have : dec j = some _ := (bind_of_some hs).trans ((bind_of_some h0).trans ((bind_of_some h1).trans (bind_of_some h2)))
      rw [this]; rfl
  · intro j s x hs hx
    obtain ⟨s', hs', h0, h1, h2⟩ := dec_inv hx
    cases hs'.symm.trans hs
    have e0 : fld "targets" (encList BuildTargetIdentifier.enc x.targets) = put "targets" none (clean (.list BuildTargetIdentifier.ty) ((s.get 0 "targets").getD (Absent.default (.arr [])).tree)) :=
      put_fld ((g0 s).2 _ h0)
    have e1 : fld "dataKind" (Json.str x.dataKind) = put "dataKind" none (clean (.str) ((s.get 1 "dataKind").getD (Absent.default (.str "")).tree)) :=
      put_fld ((g1 s).2 _ h1)
    have e2 : skipIf x.data.isNull "data" x.data.json = put "data" (some (.null)) (clean (.any) ((s.get 2 "data").getD (Absent.default (.null)).tree)) :=
      put_skipIf ((g2 s).2 _ h2) value_null_json
    simp only [enc, e0, e1, e2, tyFields, allClean, List.append_assoc, List.append_nil]

end DebugSessionStart

/-! ### TaskId -/

namespace TaskId

/-- The members. bsp-types/src/task/id.rs:3-18. -/
def tyFields : Fields :=
  .cons "id" (.default (.str "")) none .str <|
  .cons "parents" (.default (.arr [])) (some (.arr [])) (.list .str) <|
  .nil

/-- The schema. bsp-types/src/task/id.rs:3-18. -/
def ty : Ty := .struct tyFields

theorem follows [Ext] : Follows ty dec enc := by
  have g0 : ∀ s : Src, Got s 0 "id" (.default (.str "")) (.str) (s.dflt 0 "id" "" decStr) (Json.str) :=
    fun s => got_dflt follows_str (by simp [clean]) s
  have g1 : ∀ s : Src, Got s 1 "parents" (.default (.arr [])) (.list .str) (s.dflt 1 "parents" [] (decList decStr)) (encList Json.str) :=
    fun s => got_dflt (follows_list follows_str) (by simp [encList, clean]) s
  refine follows_struct (fields := fields) rfl (fun j h => by simp only [dec, h]; rfl) ?_ ?_
  · intro j s hs
    constructor
    · intro h
      obtain ⟨x, hx⟩ := Option.isSome_iff_exists.1 h
      obtain ⟨s', hs', h0, h1⟩ := dec_inv hx
      cases hs'.symm.trans hs
      exact ⟨(g0 s).ok h0, (g1 s).ok h1, trivial⟩
    · rintro ⟨o0, o1, -⟩
      obtain ⟨a0, h0⟩ := (g0 s).some o0
      obtain ⟨a1, h1⟩ := (g1 s).some o1
      have : dec j = some _ := (bind_of_some hs).trans ((bind_of_some h0).trans (bind_of_some h1))
      rw [this]; rfl
  · intro j s x hs hx
    obtain ⟨s', hs', h0, h1⟩ := dec_inv hx
    cases hs'.symm.trans hs
    have e0 : fld "id" (Json.str x.id) = put "id" none (clean (.str) ((s.get 0 "id").getD (Absent.default (.str "")).tree)) :=
      put_fld ((g0 s).2 _ h0)
    have e1 : skipIf x.parents.isEmpty "parents" (encList Json.str x.parents) = put "parents" (some (.arr [])) (clean (.list .str) ((s.get 1 "parents").getD (Absent.default (.arr [])).tree)) :=
      put_skipIf ((g1 s).2 _ h1) (by simp [encList])
    simp only [enc, e0, e1, tyFields, allClean, List.append_assoc, List.append_nil]

end TaskId

/-! ### ShowMessage -/

namespace ShowMessage

/-- The members. bsp-types/src/show_message.rs:13-30. -/
def tyFields : Fields :=
  .cons "type" .required none (.codes [1, 2, 3, 4]) <|
  .cons "message" .required none .str <|
  .cons "task" .optional (some (.null)) (.opt TaskId.ty) <|
  .cons "originId" .optional (some (.null)) (.opt .str) <|
  .nil

/-- The schema. bsp-types/src/show_message.rs:13-30. -/
def ty : Ty := .struct tyFields

theorem follows [Ext] : Follows ty dec enc := by
  have g0 : ∀ s : Src, Got s 0 "type" .required (.codes [1, 2, 3, 4]) (s.req 0 "type" MessageType.dec) (MessageType.enc) :=
    fun s => got_req follows_messageType s
  have g1 : ∀ s : Src, Got s 1 "message" .required (.str) (s.req 1 "message" decStr) (Json.str) :=
    fun s => got_req follows_str s
  have g2 : ∀ s : Src, Got s 2 "task" .optional (.opt TaskId.ty) (s.opt 2 "task" TaskId.dec) (encOpt TaskId.enc) :=
    fun s => got_opt TaskId.follows s
  have g3 : ∀ s : Src, Got s 3 "originId" .optional (.opt .str) (s.opt 3 "originId" decStr) (encOpt Json.str) :=
    fun s => got_opt follows_str s
  refine follows_struct (fields := fields) rfl (fun j h => by simp only [dec, h]; rfl) ?_ ?_
  · intro j s hs
    constructor
    · intro h
      obtain ⟨x, hx⟩ := Option.isSome_iff_exists.1 h
      obtain ⟨s', hs', h0, h1, h2, h3⟩ := dec_inv hx
      cases hs'.symm.trans hs
      exact ⟨(g0 s).ok h0, (g1 s).ok h1, (g2 s).ok h2, (g3 s).ok h3, trivial⟩
    · rintro ⟨o0, o1, o2, o3, -⟩
      obtain ⟨a0, h0⟩ := (g0 s).some o0
      obtain ⟨a1, h1⟩ := (g1 s).some o1
      obtain ⟨a2, h2⟩ := (g2 s).some o2
      obtain ⟨a3, h3⟩ := (g3 s).some o3
      have : dec j = some _ := (bind_of_some hs).trans ((bind_of_some h0).trans ((bind_of_some h1).trans ((bind_of_some h2).trans (bind_of_some h3))))
      rw [this]; rfl
  · intro j s x hs hx
    obtain ⟨s', hs', h0, h1, h2, h3⟩ := dec_inv hx
    cases hs'.symm.trans hs
    have e0 : fld "type" (MessageType.enc x.typ) = put "type" none (clean (.codes [1, 2, 3, 4]) ((s.get 0 "type").getD Absent.required.tree)) :=
      put_fld ((g0 s).2 _ h0)
    have e1 : fld "message" (Json.str x.message) = put "message" none (clean (.str) ((s.get 1 "message").getD Absent.required.tree)) :=
      put_fld ((g1 s).2 _ h1)
    have e2 : skipNone "task" TaskId.enc x.task = put "task" (some (.null)) (clean (.opt TaskId.ty) ((s.get 2 "task").getD Absent.optional.tree)) :=
      put_skipNone ((g2 s).2 _ h2) (by simp [TaskId.enc])
    have e3 : skipNone "originId" Json.str x.originId = put "originId" (some (.null)) (clean (.opt .str) ((s.get 3 "originId").getD Absent.optional.tree)) :=
      put_skipNone ((g3 s).2 _ h3) (by simp)
    simp only [enc, e0, e1, e2, e3, tyFields, allClean, List.append_assoc, List.append_nil]

end ShowMessage

/-! ### LogMessage -/

namespace LogMessage

/-- The members. bsp-types/src/log_message.rs:13-30. -/
def tyFields : Fields :=
  .cons "type" .required none (.codes [1, 2, 3, 4]) <|
  .cons "task" .optional (some (.null)) (.opt TaskId.ty) <|
  .cons "originId" .optional (some (.null)) (.opt .str) <|
  .cons "message" .required none .str <|
  .nil

/-- The schema. bsp-types/src/log_message.rs:13-30. -/
def ty : Ty := .struct tyFields

theorem follows [Ext] : Follows ty dec enc := by
  have g0 : ∀ s : Src, Got s 0 "type" .required (.codes [1, 2, 3, 4]) (s.req 0 "type" MessageType.dec) (MessageType.enc) :=
    fun s => got_req follows_messageType s
  have g1 : ∀ s : Src, Got s 1 "task" .optional (.opt TaskId.ty) (s.opt 1 "task" TaskId.dec) (encOpt TaskId.enc) :=
    fun s => got_opt TaskId.follows s
  have g2 : ∀ s : Src, Got s 2 "originId" .optional (.opt .str) (s.opt 2 "originId" decStr) (encOpt Json.str) :=
    fun s => got_opt follows_str s
  have g3 : ∀ s : Src, Got s 3 "message" .required (.str) (s.req 3 "message" decStr) (Json.str) :=
    fun s => got_req follows_str s
  refine follows_struct (fields := fields) rfl (fun j h => by simp only [dec, h]; rfl) ?_ ?_
  · intro j s hs
    constructor
    · intro h
      obtain ⟨x, hx⟩ := Option.isSome_iff_exists.1 h
      obtain ⟨s', hs', h0, h1, h2, h3⟩ := dec_inv hx
      cases hs'.symm.trans hs
      exact ⟨(g0 s).ok h0, (g1 s).ok h1, (g2 s).ok h2, (g3 s).ok h3, trivial⟩
    · rintro ⟨o0, o1, o2, o3, -⟩
      obtain ⟨a0, h0⟩ := (g0 s).some o0
      obtain ⟨a1, h1⟩ := (g1 s).some o1
      obtain ⟨a2, h2⟩ := (g2 s).some o2
      obtain ⟨a3, h3⟩ := (g3 s).some o3
      have : dec j = some _ := (bind_of_some hs).trans ((bind_of_some h0).trans ((bind_of_some h1).trans ((bind_of_some h2).trans (bind_of_some h3))))
      rw [this]; rfl
  · intro j s x hs hx
    obtain ⟨s', hs', h0, h1, h2, h3⟩ := dec_inv hx
    cases hs'.symm.trans hs
    have e0 : fld "type" (MessageType.enc x.typ) = put "type" none (clean (.codes [1, 2, 3, 4]) ((s.get 0 "type").getD Absent.required.tree)) :=
      put_fld ((g0 s).2 _ h0)
    have e1 : skipNone "task" TaskId.enc x.task = put "task" (some (.null)) (clean (.opt TaskId.ty) ((s.get 1 "task").getD Absent.optional.tree)) :=
      put_skipNone ((g1 s).2 _ h1) (by simp [TaskId.enc])
    have e2 : skipNone "originId" Json.str x.originId = put "originId" (some (.null)) (clean (.opt .str) ((s.get 2 "originId").getD Absent.optional.tree)) :=
      put_skipNone ((g2 s).2 _ h2) (by simp)
    have e3 : fld "message" (Json.str x.message) = put "message" none (clean (.str) ((s.get 3 "message").getD Absent.required.tree)) :=
      put_fld ((g3 s).2 _ h3)
    simp only [enc, e0, e1, e2, e3, tyFields, allClean, List.append_assoc, List.append_nil]

end LogMessage

/-! ### Position -/

namespace Position

/-- The members. lsp_types::Position (bsp-types/src/publish_diagnostics.rs:1, 22). -/
def tyFields : Fields :=
  .cons "line" .required none (.int 0 (2 ^ 32)) <|
  .cons "character" .required none (.int 0 (2 ^ 32)) <|
  .nil

/-- The schema. lsp_types::Position (bsp-types/src/publish_diagnostics.rs:1, 22). -/
def ty : Ty := .struct tyFields

theorem follows [Ext] : Follows ty dec enc := by
  have g0 : ∀ s : Src, Got s 0 "line" .required (.int 0 (2 ^ 32)) (s.req 0 "line" decU32) (encU32) :=
    fun s => got_req follows_u32 s
  have g1 : ∀ s : Src, Got s 1 "character" .required (.int 0 (2 ^ 32)) (s.req 1 "character" decU32) (encU32) :=
    fun s => got_req follows_u32 s
  refine follows_struct (fields := fields) rfl (fun j h => by simp only [dec, h]; rfl) ?_ ?_
  · intro j s hs
    constructor
    · intro h
      obtain ⟨x, hx⟩ := Option.isSome_iff_exists.1 h
      obtain ⟨s', hs', h0, h1⟩ := dec_inv hx
      cases hs'.symm.trans hs
      exact ⟨(g0 s).ok h0, (g1 s).ok h1, trivial⟩
    · rintro ⟨o0, o1, -⟩
      obtain ⟨a0, h0⟩ := (g0 s).some o0
      obtain ⟨a1, h1⟩ := (g1 s).some o1
      have : dec j = some _ := (bind_of_some hs).trans ((bind_of_some h0).trans (bind_of_some h1))
      rw [this]; rfl
  · intro j s x hs hx
    obtain ⟨s', hs', h0, h1⟩ := dec_inv hx
    cases hs'.symm.trans hs
    have e0 : fld "line" (encU32 x.line) = put "line" none (clean (.int 0 (2 ^ 32)) ((s.get 0 "line").getD Absent.required.tree)) :=
      put_fld ((g0 s).2 _ h0)
    have e1 : fld "character" (encU32 x.character) = put "character" none (clean (.int 0 (2 ^ 32)) ((s.get 1 "character").getD Absent.required.tree)) :=
      put_fld ((g1 s).2 _ h1)
    simp only [enc, e0, e1, tyFields, allClean, List.append_assoc, List.append_nil]

end Position

/-! ### Range -/

namespace Range

/-- The members. lsp_types::Range (bsp-types/src/publish_diagnostics.rs:1, 22). -/
def tyFields : Fields :=
  .cons "start" .required none Position.ty <|
  .cons "end" .required none Position.ty <|
  .nil

/-- The schema. lsp_types::Range (bsp-types/src/publish_diagnostics.rs:1, 22). -/
def ty : Ty := .struct tyFields

theorem follows [Ext] : Follows ty dec enc := by
  have g0 : ∀ s : Src, Got s 0 "start" .required (Position.ty) (s.req 0 "start" Position.dec) (Position.enc) :=
    fun s => got_req Position.follows s
  have g1 : ∀ s : Src, Got s 1 "end" .required (Position.ty) (s.req 1 "end" Position.dec) (Position.enc) :=
    fun s => got_req Position.follows s
  refine follows_struct (fields := fields) rfl (fun j h => by simp only [dec, h]; rfl) ?_ ?_
  · intro j s hs
    constructor
    · intro h
      obtain ⟨x, hx⟩ := Option.isSome_iff_exists.1 h
      obtain ⟨s', hs', h0, h1⟩ := dec_inv hx
      cases hs'.symm.trans hs
      exact ⟨(g0 s).ok h0, (g1 s).ok h1, trivial⟩
    · rintro ⟨o0, o1, -⟩
      obtain ⟨a0, h0⟩ := (g0 s).some o0
      obtain ⟨a1, h1⟩ := (g1 s).some o1
      have : dec j = some _ := (bind_of_some hs).trans ((bind_of_some h0).trans (bind_of_some h1))
      rw [this]; rfl
  · intro j s x hs hx
    obtain ⟨s', hs', h0, h1⟩ := dec_inv hx
    cases hs'.symm.trans hs
    have e0 : fld "start" (Position.enc x.start) = put "start" none (clean (Position.ty) ((s.get 0 "start").getD Absent.required.tree)) :=
      put_fld ((g0 s).2 _ h0)
    have e1 : fld "end" (Position.enc x.end_) = put "end" none (clean (Position.ty) ((s.get 1 "end").getD Absent.required.tree)) :=
      put_fld ((g1 s).2 _ h1)
    simp only [enc, e0, e1, tyFields, allClean, List.append_assoc, List.append_nil]

end Range

/-! ### CodeDescription -/

namespace CodeDescription

/-- The members. lsp_types::CodeDescription (bsp-types/src/publish_diagnostics.rs:1, 22). -/
def tyFields : Fields :=
  .cons "href" .required none .url <|
  .nil

/-- The schema. lsp_types::CodeDescription (bsp-types/src/publish_diagnostics.rs:1, 22). -/
def ty : Ty := .struct tyFields

theorem follows [Ext] : Follows ty dec enc := by
  have g0 : ∀ s : Src, Got s 0 "href" .required (.url) (s.req 0 "href" decUrl) (encUrl) :=
    fun s => got_req follows_url s
  refine follows_struct (fields := fields) rfl (fun j h => by simp only [dec, h]; rfl) ?_ ?_
  · intro j s hs
    constructor
    · intro h
      obtain ⟨x, hx⟩ := Option.isSome_iff_exists.1 h
      obtain ⟨s', hs', h0⟩ := dec_inv hx
      cases hs'.symm.trans hs
      exact ⟨(g0 s).ok h0, trivial⟩
    · rintro ⟨o0, -⟩
      obtain ⟨a0, h0⟩ := (g0 s).some o0
      have : dec j = some _ := (bind_of_some hs).trans (bind_of_some h0)
      rw [this]; rfl
  · intro j s x hs hx
    obtain ⟨s', hs', h0⟩ := dec_inv hx
    cases hs'.symm.trans hs
    have e0 : fld "href" (encUrl x.href) = put "href" none (clean (.url) ((s.get 0 "href").getD Absent.required.tree)) :=
      put_fld ((g0 s).2 _ h0)
    simp only [enc, e0, tyFields, allClean, List.append_assoc, List.append_nil]

end CodeDescription

/-! ### Location -/

namespace Location

/-- The members. lsp_types::Location (bsp-types/src/publish_diagnostics.rs:1, 22). -/
def tyFields : Fields :=
  .cons "uri" .required none .url <|
  .cons "range" .required none Range.ty <|
  .nil

/-- The schema. lsp_types::Location (bsp-types/src/publish_diagnostics.rs:1, 22). -/
def ty : Ty := .struct tyFields

theorem follows [Ext] : Follows ty dec enc := by
  have g0 : ∀ s : Src, Got s 0 "uri" .required (.url) (s.req 0 "uri" decUrl) (encUrl) :=
    fun s => got_req follows_url s
  have g1 : ∀ s : Src, Got s 1 "range" .required (Range.ty) (s.req 1 "range" Range.dec) (Range.enc) :=
    fun s => got_req Range.follows s
  refine follows_struct (fields := fields) rfl (fun j h => by simp only [dec, h]; rfl) ?_ ?_
  · intro j s hs
    constructor
    · intro h
      obtain ⟨x, hx⟩ := Option.isSome_iff_exists.1 h
      obtain ⟨s', hs', h0, h1⟩ := dec_inv hx
      cases hs'.symm.trans hs
      exact ⟨(g0 s).ok h0, (g1 s).ok h1, trivial⟩
    · rintro ⟨o0, o1, -⟩
      obtain ⟨a0, h0⟩ := (g0 s).some o0
      obtain ⟨a1, h1⟩ := (g1 s).some o1
      have : dec j = some _ := (bind_of_some hs).trans ((bind_of_some h0).trans (bind_of_some h1))
      rw [this]; rfl
  · intro j s x hs hx
    obtain ⟨s', hs', h0, h1⟩ := dec_inv hx
    cases hs'.symm.trans hs
    have e0 : fld "uri" (encUrl x.uri) = put "uri" none (clean (.url) ((s.get 0 "uri").getD Absent.required.tree)) :=
      put_fld ((g0 s).2 _ h0)
    have e1 : fld "range" (Range.enc x.range) = put "range" none (clean (Range.ty) ((s.get 1 "range").getD Absent.required.tree)) :=
      put_fld ((g1 s).2 _ h1)
    simp only [enc, e0, e1, tyFields, allClean, List.append_assoc, List.append_nil]

end Location

/-! ### DiagnosticRelatedInformation -/

namespace DiagnosticRelatedInformation

/-- The members. lsp_types::DiagnosticRelatedInformation (bsp-types/src/publish_diagnostics.rs:1, 22). -/
def tyFields : Fields :=
  .cons "location" .required none Location.ty <|
  .cons "message" .required none .str <|
  .nil

/-- The schema. lsp_types::DiagnosticRelatedInformation (bsp-types/src/publish_diagnostics.rs:1, 22). -/
def ty : Ty := .struct tyFields

theorem follows [Ext] : Follows ty dec enc := by
  have g0 : ∀ s : Src, Got s 0 "location" .required (Location.ty) (s.req 0 "location" Location.dec) (Location.enc) :=
    fun s => got_req Location.follows s
  have g1 : ∀ s : Src, Got s 1 "message" .required (.str) (s.req 1 "message" decStr) (Json.str) :=
    fun s => got_req follows_str s
  refine follows_struct (fields := fields) rfl (fun j h => by simp only [dec, h]; rfl) ?_ ?_
  · intro j s hs
    constructor
    · intro h
      obtain ⟨x, hx⟩ := Option.isSome_iff_exists.1 h
      obtain ⟨s', hs', h0, h1⟩ := dec_inv hx
      cases hs'.symm.trans hs
      exact ⟨(g0 s).ok h0, (g1 s).ok h1, trivial⟩
    · rintro ⟨o0, o1, -⟩
      obtain ⟨a0, h0⟩ := (g0 s).some o0
      obtain ⟨a1, h1⟩ := (g1 s).some o1
      have : dec j = some _ := (bind_of_some hs).trans ((bind_of_some h0).trans (bind_of_some h1))
      rw [this]; rfl
  · intro j s x hs hx
    obtain ⟨s', hs', h0, h1⟩ := dec_inv hx
    cases hs'.symm.trans hs
    have e0 : fld "location" (Location.enc x.location) = put "location" none (clean (Location.ty) ((s.get 0 "location").getD Absent.required.tree)) :=
      put_fld ((g0 s).2 _ h0)
    have e1 : fld "message" (Json.str x.message) = put "message" none (clean (.str) ((s.get 1 "message").getD Absent.required.tree)) :=
      put_fld ((g1 s).2 _ h1)
    simp only [enc, e0, e1, tyFields, allClean, List.append_assoc, List.append_nil]

end DiagnosticRelatedInformation

/-! ### Diagnostic -/

namespace Diagnostic

/-- The members. lsp_types::Diagnostic (bsp-types/src/publish_diagnostics.rs:1, 22). -/
def tyFields : Fields :=
  .cons "range" .required none Range.ty <|
  .cons "severity" .optional (some (.null)) (.opt (.int (-2 ^ 31) (2 ^ 31))) <|
  .cons "code" .optional (some (.null)) (.opt .numOrStr) <|
  .cons "codeDescription" .optional (some (.null)) (.opt CodeDescription.ty) <|
  .cons "source" .optional (some (.null)) (.opt .str) <|
  .cons "message" .required none .str <|
  .cons "relatedInformation" .optional (some (.null)) (.opt (.list DiagnosticRelatedInformation.ty)) <|
  .cons "tags" .optional (some (.null)) (.opt (.list (.int (-2 ^ 31) (2 ^ 31)))) <|
  .cons "data" .optional (some (.null)) (.opt .any) <|
  .nil

/-- The schema. lsp_types::Diagnostic (bsp-types/src/publish_diagnostics.rs:1, 22). -/
def ty : Ty := .struct tyFields

theorem follows [Ext] : Follows ty dec enc := by
  have g0 : ∀ s : Src, Got s 0 "range" .required (Range.ty) (s.req 0 "range" Range.dec) (Range.enc) :=
    fun s => got_req Range.follows s
  have g1 : ∀ s : Src, Got s 1 "severity" .optional (.opt (.int (-2 ^ 31) (2 ^ 31))) (s.opt 1 "severity" decI32) (encOpt encI32) :=
    fun s => got_opt follows_i32 s
  have g2 : ∀ s : Src, Got s 2 "code" .optional (.opt .numOrStr) (s.opt 2 "code" NumberOrString.dec) (encOpt NumberOrString.enc) :=
    fun s => got_opt follows_numberOrString s
  have g3 : ∀ s : Src, Got s 3 "codeDescription" .optional (.opt CodeDescription.ty) (s.opt 3 "codeDescription" CodeDescription.dec) (encOpt CodeDescription.enc) :=
    fun s => got_opt CodeDescription.follows s
  have g4 : ∀ s : Src, Got s 4 "source" .optional (.opt .str) (s.opt 4 "source" decStr) (encOpt Json.str) :=
    fun s => got_opt follows_str s
  have g5 : ∀ s : Src, Got s 5 "message" .required (.str) (s.req 5 "message" decStr) (Json.str) :=
    fun s => got_req follows_str s
  have g6 : ∀ s : Src, Got s 6 "relatedInformation" .optional (.opt (.list DiagnosticRelatedInformation.ty)) (s.opt 6 "relatedInformation" (decList DiagnosticRelatedInformation.dec)) (encOpt (encList DiagnosticRelatedInformation.enc)) :=
    fun s => got_opt (follows_list DiagnosticRelatedInformation.follows) s
  have g7 : ∀ s : Src, Got s 7 "tags" .optional (.opt (.list (.int (-2 ^ 31) (2 ^ 31)))) (s.opt 7 "tags" (decList decI32)) (encOpt (encList encI32)) :=
    fun s => got_opt (follows_list follows_i32) s
  have g8 : ∀ s : Src, Got s 8 "data" .optional (.opt .any) (s.opt 8 "data" decValue) (encOpt Value.json) :=
    fun s => got_opt follows_value s
  refine follows_struct (fields := fields) rfl (fun j h => by simp only [dec, h]; rfl) ?_ ?_
  · intro j s hs
    constructor
    · intro h
      obtain ⟨x, hx⟩ := Option.isSome_iff_exists.1 h
      obtain ⟨s', hs', h0, h1, h2, h3, h4, h5, h6, h7, h8⟩ := dec_inv hx
      cases hs'.symm.trans hs
      exact ⟨(g0 s).ok h0, (g1 s).ok h1, (g2 s).ok h2, (g3 s).ok h3, (g4 s).ok h4, (g5 s).ok h5, (g6 s).ok h6, (g7 s).ok h7, (g8 s).ok h8, trivial⟩
    · rintro ⟨o0, o1, o2, o3, o4, o5, o6, o7, o8, -⟩
      obtain ⟨a0, h0⟩ := (g0 s).some o0
      obtain ⟨a1, h1⟩ := (g1 s).some o1
      obtain ⟨a2, h2⟩ := (g2 s).some o2
      obtain ⟨a3, h3⟩ := (g3 s).some o3
      obtain ⟨a4, h4⟩ := (g4 s).some o4
      obtain ⟨a5, h5⟩ := (g5 s).some o5
      obtain ⟨a6, h6⟩ := (g6 s).some o6
      obtain ⟨a7, h7⟩ := (g7 s).some o7
      obtain ⟨a8, h8⟩ := (g8 s).some o8
      have : dec j = some _ := (bind_of_some hs).trans ((bind_of_some h0).trans ((bind_of_some h1).trans ((bind_of_some h2).trans ((bind_of_some h3).trans ((bind_of_some h4).trans ((bind_of_some h5).trans ((bind_of_some h6).trans ((bind_of_some h7).trans (bind_of_some h8)))))))))
      rw [this]; rfl
  · intro j s x hs hx
    obtain ⟨s', hs', h0, h1, h2, h3, h4, h5, h6, h7, h8⟩ := dec_inv hx
    cases hs'.symm.trans hs
    have e0 : fld "range" (Range.enc x.range) = put "range" none (clean (Range.ty) ((s.get 0 "range").getD Absent.required.tree)) :=
      put_fld ((g0 s).2 _ h0)
    have e1 : skipNone "severity" encI32 x.severity = put "severity" (some (.null)) (clean (.opt (.int (-2 ^ 31) (2 ^ 31))) ((s.get 1 "severity").getD Absent.optional.tree)) :=
      put_skipNone ((g1 s).2 _ h1) (by simp [encI32])
    have e2 : skipNone "code" NumberOrString.enc x.code = put "code" (some (.null)) (clean (.opt .numOrStr) ((s.get 2 "code").getD Absent.optional.tree)) :=
      put_skipNone ((g2 s).2 _ h2) (fun v _ => v.enc_ne_null)
    have e3 : skipNone "codeDescription" CodeDescription.enc x.codeDescription = put "codeDescription" (some (.null)) (clean (.opt CodeDescription.ty) ((s.get 3 "codeDescription").getD Absent.optional.tree)) :=
      put_skipNone ((g3 s).2 _ h3) (by simp [CodeDescription.enc])
    have e4 : skipNone "source" Json.str x.source = put "source" (some (.null)) (clean (.opt .str) ((s.get 4 "source").getD Absent.optional.tree)) :=
      put_skipNone ((g4 s).2 _ h4) (by simp)
    have e5 : fld "message" (Json.str x.message) = put "message" none (clean (.str) ((s.get 5 "message").getD Absent.required.tree)) :=
      put_fld ((g5 s).2 _ h5)
    have e6 : skipNone "relatedInformation" (encList DiagnosticRelatedInformation.enc) x.relatedInformation = put "relatedInformation" (some (.null)) (clean (.opt (.list DiagnosticRelatedInformation.ty)) ((s.get 6 "relatedInformation").getD Absent.optional.tree)) :=
      put_skipNone ((g6 s).2 _ h6) (by simp [encList])
    have e7 : skipNone "tags" (encList encI32) x.tags = put "tags" (some (.null)) (clean (.opt (.list (.int (-2 ^ 31) (2 ^ 31)))) ((s.get 7 "tags").getD Absent.optional.tree)) :=
      put_skipNone ((g7 s).2 _ h7) (by simp [encList])
    have e8 : skipNone "data" Value.json x.data = put "data" (some (.null)) (clean (.opt .any) ((s.get 8 "data").getD Absent.optional.tree)) :=
      put_skipNone ((g8 s).2 _ h8) (fun v hv => Value.json_ne_null (opt_value_plain h8) hv)
    simp only [enc, e0, e1, e2, e3, e4, e5, e6, e7, e8, tyFields, allClean, List.append_assoc, List.append_nil]

end Diagnostic

/-! ### PublishDiagnostics -/

namespace PublishDiagnostics

/-- The members. bsp-types/src/publish_diagnostics.rs:6-27. -/
def tyFields : Fields :=
  .cons "textDocument" .required none TextDocumentIdentifier.ty <|
  .cons "buildTarget" .required none BuildTargetIdentifier.ty <|
  .cons "originId" .optional none (.opt .str) <|
  .cons "diagnostics" .required none (.list Diagnostic.ty) <|
  .cons "reset" .required none .bool <|
  .nil

/-- The schema. bsp-types/src/publish_diagnostics.rs:6-27. -/
def ty : Ty := .struct tyFields

theorem follows [Ext] : Follows ty dec enc := by
  have g0 : ∀ s : Src, Got s 0 "textDocument" .required (TextDocumentIdentifier.ty) (s.req 0 "textDocument" TextDocumentIdentifier.dec) (TextDocumentIdentifier.enc) :=
    fun s => got_req TextDocumentIdentifier.follows s
  have g1 : ∀ s : Src, Got s 1 "buildTarget" .required (BuildTargetIdentifier.ty) (s.req 1 "buildTarget" BuildTargetIdentifier.dec) (BuildTargetIdentifier.enc) :=
    fun s => got_req BuildTargetIdentifier.follows s
  have g2 : ∀ s : Src, Got s 2 "originId" .optional (.opt .str) (s.opt 2 "originId" decStr) (encOpt Json.str) :=
    fun s => got_opt follows_str s
  have g3 : ∀ s : Src, Got s 3 "diagnostics" .required (.list Diagnostic.ty) (s.req 3 "diagnostics" (decList Diagnostic.dec)) (encList Diagnostic.enc) :=
    fun s => got_req (follows_list Diagnostic.follows) s
  have g4 : ∀ s : Src, Got s 4 "reset" .required (.bool) (s.req 4 "reset" decBool) (Json.bool) :=
    fun s => got_req follows_bool s
  refine follows_struct (fields := fields) rfl (fun j h => by simp only [dec, h]; rfl) ?_ ?_
  · intro j s hs
    constructor
    · intro h
      obtain ⟨x, hx⟩ := Option.isSome_iff_exists.1 h
      obtain ⟨s', hs', h0, h1, h2, h3, h4⟩ := dec_inv hx
      cases hs'.symm.trans hs
      exact ⟨(g0 s).ok h0, (g1 s).ok h1, (g2 s).ok h2, (g3 s).ok h3, (g4 s).ok h4, trivial⟩
    · rintro ⟨o0, o1, o2, o3, o4, -⟩
      obtain ⟨a0, h0⟩ := (g0 s).some o0
      obtain ⟨a1, h1⟩ := (g1 s).some o1
      obtain ⟨a2, h2⟩ := (g2 s).some o2
      obtain ⟨a3, h3⟩ := (g3 s).some o3
      obtain ⟨a4, h4⟩ := (g4 s).some o4
      have : dec j = some _ := (bind_of_some hs).trans ((bind_of_some h0).trans ((bind_of_some h1).trans ((bind_of_some h2).trans ((bind_of_some h3).trans (bind_of_some h4)))))
      rw [this]; rfl
  · intro j s x hs hx
    obtain ⟨s', hs', h0, h1, h2, h3, h4⟩ := dec_inv hx
    cases hs'.symm.trans hs
    have e0 : fld "textDocument" (TextDocumentIdentifier.enc x.textDocument) = put "textDocument" none (clean (TextDocumentIdentifier.ty) ((s.get 0 "textDocument").getD Absent.required.tree)) :=
      put_fld ((g0 s).2 _ h0)
    have e1 : fld "buildTarget" (BuildTargetIdentifier.enc x.buildTarget) = put "buildTarget" none (clean (BuildTargetIdentifier.ty) ((s.get 1 "buildTarget").getD Absent.required.tree)) :=
      put_fld ((g1 s).2 _ h1)
    have e2 : fld "originId" (encOpt Json.str x.originId) = put "originId" none (clean (.opt .str) ((s.get 2 "originId").getD Absent.optional.tree)) :=
      put_fld ((g2 s).2 _ h2)
    have e3 : fld "diagnostics" (encList Diagnostic.enc x.diagnostics) = put "diagnostics" none (clean (.list Diagnostic.ty) ((s.get 3 "diagnostics").getD Absent.required.tree)) :=
      put_fld ((g3 s).2 _ h3)
    have e4 : fld "reset" (Json.bool x.reset) = put "reset" none (clean (.bool) ((s.get 4 "reset").getD Absent.required.tree)) :=
      put_fld ((g4 s).2 _ h4)
    simp only [enc, e0, e1, e2, e3, e4, tyFields, allClean, List.append_assoc, List.append_nil]

end PublishDiagnostics

/-! ### TaskStart -/

namespace TaskStart

/-- The members. bsp-types/src/task/start.rs:6-30. -/
def tyFields : Fields :=
  .cons "taskId" (.default (.obj [])) none TaskId.ty <|
  .cons "eventTime" (.default (.null)) (some (.null)) (.opt (.int 0 (2 ^ 32))) <|
  .cons "message" (.default (.str "")) (some (.str "")) .str <|
  .cons "dataKind" (.default (.null)) (some (.null)) .kind <|
  .cons "data" (.default (.null)) (some (.null)) .any <|
  .nil

/-- The schema. bsp-types/src/task/start.rs:6-30. -/
def ty : Ty := .struct tyFields

theorem follows [Ext] : Follows ty dec enc := by
  have g0 : ∀ s : Src, Got s 0 "taskId" (.default (.obj [])) (TaskId.ty) (s.dflt 0 "taskId" TaskId.default TaskId.dec) (TaskId.enc) :=
    fun s => got_dflt TaskId.follows (by simp [TaskId.enc, TaskId.default, TaskId.ty, TaskId.tyFields, clean, cleanMap, put, fld, skipIf, Absent.tree]) s
  have g1 : ∀ s : Src, Got s 1 "eventTime" (.default (.null)) (.opt (.int 0 (2 ^ 32))) (s.dflt 1 "eventTime" none (decOpt decU32)) (encOpt encU32) :=
    fun s => got_dflt (follows_opt follows_u32) (by simp [encOpt, clean]) s
  have g2 : ∀ s : Src, Got s 2 "message" (.default (.str "")) (.str) (s.dflt 2 "message" "" decStr) (Json.str) :=
    fun s => got_dflt follows_str (by simp [clean]) s
  have g3 : ∀ s : Src, Got s 3 "dataKind" (.default (.null)) (.kind) (s.dflt 3 "dataKind" TaskDataKind.none TaskDataKind.dec) (TaskDataKind.enc) :=
    fun s => got_dflt follows_kind (by simp [TaskDataKind.enc, clean]) s
  have g4 : ∀ s : Src, Got s 4 "data" (.default (.null)) (.any) (s.dflt 4 "data" Value.null decValue) (Value.json) :=
    fun s => got_dflt follows_value (by simp only [clean, canon_null]; rfl) s
  refine follows_struct (fields := fields) rfl (fun j h => by simp only [dec, h]; rfl) ?_ ?_
  · intro j s hs
    constructor
    · intro h
      obtain ⟨x, hx⟩ := Option.isSome_iff_exists.1 h
      obtain ⟨s', hs', h0, h1, h2, h3, h4⟩ := dec_inv hx
      cases hs'.symm.trans hs
      exact ⟨(g0 s).ok h0, (g1 s).ok h1, (g2 s).ok h2, (g3 s).ok h3, (g4 s).ok h4, trivial⟩
    · rintro ⟨o0, o1, o2, o3, o4, -⟩
      obtain ⟨a0, h0⟩ := (g0 s).some o0
      obtain ⟨a1, h1⟩ := (g1 s).some o1
      obtain ⟨a2, h2⟩ := (g2 s).some o2
      obtain ⟨a3, h3⟩ := (g3 s).some o3
      obtain ⟨a4, h4⟩ := (g4 s).some o4
      have : dec j = some _ := (bind_of_some hs).trans ((bind_of_some h0).trans ((bind_of_some h1).trans ((bind_of_some h2).trans ((bind_of_some h3).trans (bind_of_some h4)))))
      rw [this]; rfl
  · intro j s x hs hx
    obtain ⟨s', hs', h0, h1, h2, h3, h4⟩ := dec_inv hx
    cases hs'.symm.trans hs
    have e0 : fld "taskId" (TaskId.enc x.taskId) = put "taskId" none (clean (TaskId.ty) ((s.get 0 "taskId").getD (Absent.default (.obj [])).tree)) :=
      put_fld ((g0 s).2 _ h0)
    have e1 : skipNone "eventTime" encU32 x.eventTime = put "eventTime" (some (.null)) (clean (.opt (.int 0 (2 ^ 32))) ((s.get 1 "eventTime").getD (Absent.default (.null)).tree)) :=
      put_skipNone ((g1 s).2 _ h1) (by simp [encU32])
    have e2 : skipIf (x.message == "") "message" (Json.str x.message) = put "message" (some (.str "")) (clean (.str) ((s.get 2 "message").getD (Absent.default (.str "")).tree)) :=
      put_skipIf ((g2 s).2 _ h2) str_empty
    have e3 : skipIf x.dataKind.isNone "dataKind" x.dataKind.enc = put "dataKind" (some (.null)) (clean (.kind) ((s.get 3 "dataKind").getD (Absent.default (.null)).tree)) :=
      put_skipIf ((g3 s).2 _ h3) (by cases x.dataKind <;> simp [TaskDataKind.isNone, TaskDataKind.enc])
    have e4 : skipIf x.data.isNull "data" x.data.json = put "data" (some (.null)) (clean (.any) ((s.get 4 "data").getD (Absent.default (.null)).tree)) :=
      put_skipIf ((g4 s).2 _ h4) value_null_json
    simp only [enc, e0, e1, e2, e3, e4, tyFields, allClean, List.append_assoc, List.append_nil]

end TaskStart

/-! ### TaskFinish -/

namespace TaskFinish

/-- The members. bsp-types/src/task/finish.rs:7-34. -/
def tyFields : Fields :=
  .cons "taskId" (.default (.obj [])) none TaskId.ty <|
  .cons "eventTime" (.default (.null)) (some (.null)) (.opt (.int 0 (2 ^ 32))) <|
  .cons "message" (.default (.str "")) (some (.str "")) .str <|
  .cons "status" (.default (.int 1)) none (.codes [1, 2, 3]) <|
  .cons "dataKind" (.default (.null)) (some (.null)) .kind <|
  .cons "data" (.default (.null)) (some (.null)) .any <|
  .nil

/-- The schema. bsp-types/src/task/finish.rs:7-34. -/
def ty : Ty := .struct tyFields

theorem follows [Ext] : Follows ty dec enc := by
  have g0 : ∀ s : Src, Got s 0 "taskId" (.default (.obj [])) (TaskId.ty) (s.dflt 0 "taskId" TaskId.default TaskId.dec) (TaskId.enc) :=
    fun s => got_dflt TaskId.follows (by simp [TaskId.enc, TaskId.default, TaskId.ty, TaskId.tyFields, clean, cleanMap, put, fld, skipIf, Absent.tree]) s
  have g1 : ∀ s : Src, Got s 1 "eventTime" (.default (.null)) (.opt (.int 0 (2 ^ 32))) (s.dflt 1 "eventTime" none (decOpt decU32)) (encOpt encU32) :=
    fun s => got_dflt (follows_opt follows_u32) (by simp [encOpt, clean]) s
  have g2 : ∀ s : Src, Got s 2 "message" (.default (.str "")) (.str) (s.dflt 2 "message" "" decStr) (Json.str) :=
    fun s => got_dflt follows_str (by simp [clean]) s
  have g3 : ∀ s : Src, Got s 3 "status" (.default (.int 1)) (.codes [1, 2, 3]) (s.dflt 3 "status" TaskStatus.ok TaskStatus.dec) (TaskStatus.enc) :=
    fun s => got_dflt follows_taskStatus (by simp [TaskStatus.enc, TaskStatus.code, clean]) s
  have g4 : ∀ s : Src, Got s 4 "dataKind" (.default (.null)) (.kind) (s.dflt 4 "dataKind" TaskDataKind.none TaskDataKind.dec) (TaskDataKind.enc) :=
    fun s => got_dflt follows_kind (by simp [TaskDataKind.enc, clean]) s
  have g5 : ∀ s : Src, Got s 5 "data" (.default (.null)) (.any) (s.dflt 5 "data" Value.null decValue) (Value.json) :=
    fun s => got_dflt follows_value (by simp only [clean, canon_null]; rfl) s
  refine follows_struct (fields := fields) rfl (fun j h => by simp only [dec, h]; rfl) ?_ ?_
  · intro j s hs
    constructor
    · intro h
      obtain ⟨x, hx⟩ := Option.isSome_iff_exists.1 h
      obtain ⟨s', hs', h0, h1, h2, h3, h4, h5⟩ := dec_inv hx
      cases hs'.symm.trans hs
      exact ⟨(g0 s).ok h0, (g1 s).ok h1, (g2 s).ok h2, (g3 s).ok h3, (g4 s).ok h4, (g5 s).ok h5, trivial⟩
    · rintro ⟨o0, o1, o2, o3, o4, o5, -⟩
      obtain ⟨a0, h0⟩ := (g0 s).some o0
      obtain ⟨a1, h1⟩ := (g1 s).some o1
      obtain ⟨a2, h2⟩ := (g2 s).some o2
      obtain ⟨a3, h3⟩ := (g3 s).some o3
      obtain ⟨a4, h4⟩ := (g4 s).some o4
      obtain ⟨a5, h5⟩ := (g5 s).some o5
      have : dec j = some _ := (bind_of_some hs).trans ((bind_of_some h0).trans ((bind_of_some h1).trans ((bind_of_some h2).trans ((bind_of_some h3).trans ((bind_of_some h4).trans (bind_of_some h5))))))
      rw [this]; rfl
  · intro j s x hs hx
    obtain ⟨s', hs', h0, h1, h2, h3, h4, h5⟩ := dec_inv hx
    cases hs'.symm.trans hs
    have e0 : fld "taskId" (TaskId.enc x.taskId) = put "taskId" none (clean (TaskId.ty) ((s.get 0 "taskId").getD (Absent.default (.obj [])).tree)) :=
      put_fld ((g0 s).2 _ h0)
    have e1 : skipNone "eventTime" encU32 x.eventTime = put "eventTime" (some (.null)) (clean (.opt (.int 0 (2 ^ 32))) ((s.get 1 "eventTime").getD (Absent.default (.null)).tree)) :=
      put_skipNone ((g1 s).2 _ h1) (by simp [encU32])
    have e2 : skipIf (x.message == "") "message" (Json.str x.message) = put "message" (some (.str "")) (clean (.str) ((s.get 2 "message").getD (Absent.default (.str "")).tree)) :=
      put_skipIf ((g2 s).2 _ h2) str_empty
    have e3 : fld "status" (TaskStatus.enc x.status) = put "status" none (clean (.codes [1, 2, 3]) ((s.get 3 "status").getD (Absent.default (.int 1)).tree)) :=
      put_fld ((g3 s).2 _ h3)
    have e4 : skipIf x.dataKind.isNone "dataKind" x.dataKind.enc = put "dataKind" (some (.null)) (clean (.kind) ((s.get 4 "dataKind").getD (Absent.default (.null)).tree)) :=
      put_skipIf ((g4 s).2 _ h4) (by cases x.dataKind <;> simp [TaskDataKind.isNone, TaskDataKind.enc])
    have e5 : skipIf x.data.isNull "data" x.data.json = put "data" (some (.null)) (clean (.any) ((s.get 5 "data").getD (Absent.default (.null)).tree)) :=
      put_skipIf ((g5 s).2 _ h5) value_null_json
    simp only [enc, e0, e1, e2, e3, e4, e5, tyFields, allClean, List.append_assoc, List.append_nil]

end TaskFinish

/-! ### TaskProgress -/

namespace TaskProgress

/-- The members. bsp-types/src/task/progress.rs:7-41. -/
def tyFields : Fields :=
  .cons "taskId" (.default (.obj [])) none TaskId.ty <|
  .cons "eventTime" (.default (.null)) (some (.null)) (.opt (.int 0 (2 ^ 32))) <|
  .cons "message" (.default (.str "")) (some (.str "")) .str <|
  .cons "total" (.default (.null)) none (.opt (.int 0 (2 ^ 32))) <|
  .cons "progress" (.default (.null)) none (.opt (.int 0 (2 ^ 32))) <|
  .cons "unit" (.default (.str "")) (some (.str "")) .str <|
  .cons "dataKind" (.default (.null)) (some (.null)) .kind <|
  .cons "data" (.default (.null)) (some (.null)) .any <|
  .nil

/-- The schema. bsp-types/src/task/progress.rs:7-41. -/
def ty : Ty := .struct tyFields

theorem follows [Ext] : Follows ty dec enc := by
  have g0 : ∀ s : Src, Got s 0 "taskId" (.default (.obj [])) (TaskId.ty) (s.dflt 0 "taskId" TaskId.default TaskId.dec) (TaskId.enc) :=
    fun s => got_dflt TaskId.follows (by simp [TaskId.enc, TaskId.default, TaskId.ty, TaskId.tyFields, clean, cleanMap, put, fld, skipIf, Absent.tree]) s
  have g1 : ∀ s : Src, Got s 1 "eventTime" (.default (.null)) (.opt (.int 0 (2 ^ 32))) (s.dflt 1 "eventTime" none (decOpt decU32)) (encOpt encU32) :=
    fun s => got_dflt (follows_opt follows_u32) (by simp [encOpt, clean]) s
  have g2 : ∀ s : Src, Got s 2 "message" (.default (.str "")) (.str) (s.dflt 2 "message" "" decStr) (Json.str) :=
    fun s => got_dflt follows_str (by simp [clean]) s
  have g3 : ∀ s : Src, Got s 3 "total" (.default (.null)) (.opt (.int 0 (2 ^ 32))) (s.dflt 3 "total" none (decOpt decU32)) (encOpt encU32) :=
    fun s => got_dflt (follows_opt follows_u32) (by simp [encOpt, clean]) s
  have g4 : ∀ s : Src, Got s 4 "progress" (.default (.null)) (.opt (.int 0 (2 ^ 32))) (s.dflt 4 "progress" none (decOpt decU32)) (encOpt encU32) :=
    fun s => got_dflt (follows_opt follows_u32) (by simp [encOpt, clean]) s
  have g5 : ∀ s : Src, Got s 5 "unit" (.default (.str "")) (.str) (s.dflt 5 "unit" "" decStr) (Json.str) :=
    fun s => got_dflt follows_str (by simp [clean]) s
  have g6 : ∀ s : Src, Got s 6 "dataKind" (.default (.null)) (.kind) (s.dflt 6 "dataKind" TaskDataKind.none TaskDataKind.dec) (TaskDataKind.enc) :=
    fun s => got_dflt follows_kind (by simp [TaskDataKind.enc, clean]) s
  have g7 : ∀ s : Src, Got s 7 "data" (.default (.null)) (.any) (s.dflt 7 "data" Value.null decValue) (Value.json) :=
    fun s => got_dflt follows_value (by simp only [clean, canon_null]; rfl) s
  refine follows_struct (fields := fields) rfl (fun j h => by simp only [dec, h]; rfl) ?_ ?_
  · intro j s hs
    constructor
    · intro h
      obtain ⟨x, hx⟩ := Option.isSome_iff_exists.1 h
      obtain ⟨s', hs', h0, h1, h2, h3, h4, h5, h6, h7⟩ := dec_inv hx
      cases hs'.symm.trans hs
      exact ⟨(g0 s).ok h0, (g1 s).ok h1, (g2 s).ok h2, (g3 s).ok h3, (g4 s).ok h4, (g5 s).ok h5, (g6 s).ok h6, (g7 s).ok h7, trivial⟩
    · rintro ⟨o0, o1, o2, o3, o4, o5, o6, o7, -⟩
      obtain ⟨a0, h0⟩ := (g0 s).some o0
      obtain ⟨a1, h1⟩ := (g1 s).some o1
      obtain ⟨a2, h2⟩ := (g2 s).some o2
      obtain ⟨a3, h3⟩ := (g3 s).some o3
      obtain ⟨a4, h4⟩ := (g4 s).some o4
      obtain ⟨a5, h5⟩ := (g5 s).some o5
      obtain ⟨a6, h6⟩ := (g6 s).some o6
      obtain ⟨a7, h7⟩ := (g7 s).some o7
      have : dec j = some _ := (bind_of_some hs).trans ((bind_of_some h0).trans ((bind_of_some h1).trans ((bind_of_some h2).trans ((bind_of_some h3).trans ((bind_of_some h4).trans ((bind_of_some h5).trans ((bind_of_some h6).trans (bind_of_some h7))))))))
      rw [this]; rfl
  · intro j s x hs hx
    obtain ⟨s', hs', h0, h1, h2, h3, h4, h5, h6, h7⟩ := dec_inv hx
    cases hs'.symm.trans hs
    have e0 : fld "taskId" (TaskId.enc x.taskId) = put "taskId" none (clean (TaskId.ty) ((s.get 0 "taskId").getD (Absent.default (.obj [])).tree)) :=
      put_fld ((g0 s).2 _ h0)
    have e1 : skipNone "eventTime" encU32 x.eventTime = put "eventTime" (some (.null)) (clean (.opt (.int 0 (2 ^ 32))) ((s.get 1 "eventTime").getD (Absent.default (.null)).tree)) :=
      put_skipNone ((g1 s).2 _ h1) (by simp [encU32])
    have e2 : skipIf (x.message == "") "message" (Json.str x.message) = put "message" (some (.str "")) (clean (.str) ((s.get 2 "message").getD (Absent.default (.str "")).tree)) :=
      put_skipIf ((g2 s).2 _ h2) str_empty
    have e3 : fld "total" (encOpt encU32 x.total) = put "total" none (clean (.opt (.int 0 (2 ^ 32))) ((s.get 3 "total").getD (Absent.default (.null)).tree)) :=
      put_fld ((g3 s).2 _ h3)
    have e4 : fld "progress" (encOpt encU32 x.progress) = put "progress" none (clean (.opt (.int 0 (2 ^ 32))) ((s.get 4 "progress").getD (Absent.default (.null)).tree)) :=
      put_fld ((g4 s).2 _ h4)
    have e5 : skipIf (x.unit == "") "unit" (Json.str x.unit) = put "unit" (some (.str "")) (clean (.str) ((s.get 5 "unit").getD (Absent.default (.str "")).tree)) :=
      put_skipIf ((g5 s).2 _ h5) str_empty
    have e6 : skipIf x.dataKind.isNone "dataKind" x.dataKind.enc = put "dataKind" (some (.null)) (clean (.kind) ((s.get 6 "dataKind").getD (Absent.default (.null)).tree)) :=
      put_skipIf ((g6 s).2 _ h6) (by cases x.dataKind <;> simp [TaskDataKind.isNone, TaskDataKind.enc])
    have e7 : skipIf x.data.isNull "data" x.data.json = put "data" (some (.null)) (clean (.any) ((s.get 7 "data").getD (Absent.default (.null)).tree)) :=
      put_skipIf ((g7 s).2 _ h7) value_null_json
    simp only [enc, e0, e1, e2, e3, e4, e5, e6, e7, tyFields, allClean, List.append_assoc, List.append_nil]

end TaskProgress

/-! ### BuildTargetEvent -/

namespace BuildTargetEvent

/-- The members. bsp-types/src/bt_did_change.rs:16-26. -/
def tyFields : Fields :=
  .cons "target" .required none BuildTargetIdentifier.ty <|
  .cons "kind" .optional (some (.null)) (.opt (.codes [1, 2, 3])) <|
  .cons "data" .optional (some (.null)) (.opt .any) <|
  .nil

/-- The schema. bsp-types/src/bt_did_change.rs:16-26. -/
def ty : Ty := .struct tyFields

theorem follows [Ext] : Follows ty dec enc := by
  have g0 : ∀ s : Src, Got s 0 "target" .required (BuildTargetIdentifier.ty) (s.req 0 "target" BuildTargetIdentifier.dec) (BuildTargetIdentifier.enc) :=
    fun s => got_req BuildTargetIdentifier.follows s
  have g1 : ∀ s : Src, Got s 1 "kind" .optional (.opt (.codes [1, 2, 3])) (s.opt 1 "kind" BuildTargetEventKind.dec) (encOpt BuildTargetEventKind.enc) :=
    fun s => got_opt follows_buildTargetEventKind s
  have g2 : ∀ s : Src, Got s 2 "data" .optional (.opt .any) (s.opt 2 "data" decValue) (encOpt Value.json) :=
    fun s => got_opt follows_value s
  refine follows_struct (fields := fields) rfl (fun j h => by simp only [dec, h]; rfl) ?_ ?_
  · intro j s hs
    constructor
    · intro h
      obtain ⟨x, hx⟩ := Option.isSome_iff_exists.1 h
      obtain ⟨s', hs', h0, h1, h2⟩ := dec_inv hx
      cases hs'.symm.trans hs
      exact ⟨(g0 s).ok h0, (g1 s).ok h1, (g2 s).ok h2, trivial⟩
    · rintro ⟨o0, o1, o2, -⟩
      obtain ⟨a0, h0⟩ := (g0 s).some o0
      obtain ⟨a1, h1⟩ := (g1 s).some o1
      obtain ⟨a2, h2⟩ := (g2 s).some o2
      have : dec j = some _ := (bind_of_some hs).trans ((bind_of_some h0).trans ((bind_of_some h1).trans (bind_of_some h2)))
      rw [this]; rfl
  · intro j s x hs hx
    obtain ⟨s', hs', h0, h1, h2⟩ := dec_inv hx
    cases hs'.symm.trans hs
    have e0 : fld "target" (BuildTargetIdentifier.enc x.target) = put "target" none (clean (BuildTargetIdentifier.ty) ((s.get 0 "target").getD Absent.required.tree)) :=
      put_fld ((g0 s).2 _ h0)
    have e1 : skipNone "kind" BuildTargetEventKind.enc x.kind = put "kind" (some (.null)) (clean (.opt (.codes [1, 2, 3])) ((s.get 1 "kind").getD Absent.optional.tree)) :=
      put_skipNone ((g1 s).2 _ h1) (by simp [BuildTargetEventKind.enc])
    have e2 : skipNone "data" Value.json x.data = put "data" (some (.null)) (clean (.opt .any) ((s.get 2 "data").getD Absent.optional.tree)) :=
      put_skipNone ((g2 s).2 _ h2) (fun v hv => Value.json_ne_null (opt_value_plain h2) hv)
    simp only [enc, e0, e1, e2, tyFields, allClean, List.append_assoc, List.append_nil]

end BuildTargetEvent

/-! ### BuildTargetDidChange -/

namespace BuildTargetDidChange

/-- The members. bsp-types/src/bt_did_change.rs:7-10. -/
def tyFields : Fields :=
  .cons "changes" .required none (.list BuildTargetEvent.ty) <|
  .nil

/-- The schema. bsp-types/src/bt_did_change.rs:7-10. -/
def ty : Ty := .struct tyFields

theorem follows [Ext] : Follows ty dec enc := by
  have g0 : ∀ s : Src, Got s 0 "changes" .required (.list BuildTargetEvent.ty) (s.req 0 "changes" (decList BuildTargetEvent.dec)) (encList BuildTargetEvent.enc) :=
    fun s => got_req (follows_list BuildTargetEvent.follows) s
  refine follows_struct (fields := fields) rfl (fun j h => by simp only [dec, h]; rfl) ?_ ?_
  · intro j s hs
    constructor
    · intro h
      obtain ⟨x, hx⟩ := Option.isSome_iff_exists.1 h
      obtain ⟨s', hs', h0⟩ := dec_inv hx
      cases hs'.symm.trans hs
      exact ⟨(g0 s).ok h0, trivial⟩
    · rintro ⟨o0, -⟩
      obtain ⟨a0, h0⟩ := (g0 s).some o0
      have : dec j = some _ := (bind_of_some hs).trans (bind_of_some h0)
      rw [this]; rfl
  · intro j s x hs hx
    obtain ⟨s', hs', h0⟩ := dec_inv hx
    cases hs'.symm.trans hs
    have e0 : fld "changes" (encList BuildTargetEvent.enc x.changes) = put "changes" none (clean (.list BuildTargetEvent.ty) ((s.get 0 "changes").getD Absent.required.tree)) :=
      put_fld ((g0 s).2 _ h0)
    simp only [enc, e0, tyFields, allClean, List.append_assoc, List.append_nil]

end BuildTargetDidChange

/-! ### CompileProvider -/

namespace CompileProvider

/-- The members. bsp-types/src/providers.rs:3-7. -/
def tyFields : Fields :=
  .cons "languageIds" .required none (.list .str) <|
  .nil

/-- The schema. bsp-types/src/providers.rs:3-7. -/
def ty : Ty := .struct tyFields

theorem follows [Ext] : Follows ty dec enc := by
  have g0 : ∀ s : Src, Got s 0 "languageIds" .required (.list .str) (s.req 0 "languageIds" (decList decStr)) (encList Json.str) :=
    fun s => got_req (follows_list follows_str) s
  refine follows_struct (fields := fields) rfl (fun j h => by simp only [dec, h]; rfl) ?_ ?_
  · intro j s hs
    constructor
    · intro h
      obtain ⟨x, hx⟩ := Option.isSome_iff_exists.1 h
      obtain ⟨s', hs', h0⟩ := dec_inv hx
      cases hs'.symm.trans hs
      exact ⟨(g0 s).ok h0, trivial⟩
    · rintro ⟨o0, -⟩
      obtain ⟨a0, h0⟩ := (g0 s).some o0
      have : dec j = some _ := (bind_of_some hs).trans (bind_of_some h0)
      rw [this]; rfl
  · intro j s x hs hx
    obtain ⟨s', hs', h0⟩ := dec_inv hx
    cases hs'.symm.trans hs
    have e0 : fld "languageIds" (encList Json.str x.languageIds) = put "languageIds" none (clean (.list .str) ((s.get 0 "languageIds").getD Absent.required.tree)) :=
      put_fld ((g0 s).2 _ h0)
    simp only [enc, e0, tyFields, allClean, List.append_assoc, List.append_nil]

end CompileProvider

/-! ### TestProvider -/

namespace TestProvider

/-- The members. bsp-types/src/providers.rs:9-13. -/
def tyFields : Fields :=
  .cons "languageIds" .required none (.list .str) <|
  .nil

/-- The schema. bsp-types/src/providers.rs:9-13. -/
def ty : Ty := .struct tyFields

theorem follows [Ext] : Follows ty dec enc := by
  have g0 : ∀ s : Src, Got s 0 "languageIds" .required (.list .str) (s.req 0 "languageIds" (decList decStr)) (encList Json.str) :=
    fun s => got_req (follows_list follows_str) s
  refine follows_struct (fields := fields) rfl (fun j h => by simp only [dec, h]; rfl) ?_ ?_
  · intro j s hs
    constructor
    · intro h
      obtain ⟨x, hx⟩ := Option.isSome_iff_exists.1 h
      obtain ⟨s', hs', h0⟩ := dec_inv hx
      cases hs'.symm.trans hs
      exact ⟨(g0 s).ok h0, trivial⟩
    · rintro ⟨o0, -⟩
      obtain ⟨a0, h0⟩ := (g0 s).some o0
      have : dec j = some _ := (bind_of_some hs).trans (bind_of_some h0)
      rw [this]; rfl
  · intro j s x hs hx
    obtain ⟨s', hs', h0⟩ := dec_inv hx
    cases hs'.symm.trans hs
    have e0 : fld "languageIds" (encList Json.str x.languageIds) = put "languageIds" none (clean (.list .str) ((s.get 0 "languageIds").getD Absent.required.tree)) :=
      put_fld ((g0 s).2 _ h0)
    simp only [enc, e0, tyFields, allClean, List.append_assoc, List.append_nil]

end TestProvider

/-! ### RunProvider -/

namespace RunProvider

/-- The members. bsp-types/src/providers.rs:15-19. -/
def tyFields : Fields :=
  .cons "languageIds" .required none (.list .str) <|
  .nil

/-- The schema. bsp-types/src/providers.rs:15-19. -/
def ty : Ty := .struct tyFields

theorem follows [Ext] : Follows ty dec enc := by
  have g0 : ∀ s : Src, Got s 0 "languageIds" .required (.list .str) (s.req 0 "languageIds" (decList decStr)) (encList Json.str) :=
    fun s => got_req (follows_list follows_str) s
  refine follows_struct (fields := fields) rfl (fun j h => by simp only [dec, h]; rfl) ?_ ?_
  · intro j s hs
    constructor
    · intro h
      obtain ⟨x, hx⟩ := Option.isSome_iff_exists.1 h
      obtain ⟨s', hs', h0⟩ := dec_inv hx
      cases hs'.symm.trans hs
      exact ⟨(g0 s).ok h0, trivial⟩
    · rintro ⟨o0, -⟩
      obtain ⟨a0, h0⟩ := (g0 s).some o0
      have : dec j = some _ := (bind_of_some hs).trans (bind_of_some h0)
      rw [this]; rfl
  · intro j s x hs hx
    obtain ⟨s', hs', h0⟩ := dec_inv hx
    cases hs'.symm.trans hs
    have e0 : fld "languageIds" (encList Json.str x.languageIds) = put "languageIds" none (clean (.list .str) ((s.get 0 "languageIds").getD Absent.required.tree)) :=
      put_fld ((g0 s).2 _ h0)
    simp only [enc, e0, tyFields, allClean, List.append_assoc, List.append_nil]

end RunProvider

/-! ### DebugProvider -/

namespace DebugProvider

/-- The members. bsp-types/src/providers.rs:21-25. -/
def tyFields : Fields :=
  .cons "languageIds" .required none (.list .str) <|
  .nil

/-- The schema. bsp-types/src/providers.rs:21-25. -/
def ty : Ty := .struct tyFields

theorem follows [Ext] : Follows ty dec enc := by
  have g0 : ∀ s : Src, Got s 0 "languageIds" .required (.list .str) (s.req 0 "languageIds" (decList decStr)) (encList Json.str) :=
    fun s => got_req (follows_list follows_str) s
  refine follows_struct (fields := fields) rfl (fun j h => by simp only [dec, h]; rfl) ?_ ?_
  · intro j s hs
    constructor
    · intro h
      obtain ⟨x, hx⟩ := Option.isSome_iff_exists.1 h
      obtain ⟨s', hs', h0⟩ := dec_inv hx
      cases hs'.symm.trans hs
      exact ⟨(g0 s).ok h0, trivial⟩
    · rintro ⟨o0, -⟩
      obtain ⟨a0, h0⟩ := (g0 s).some o0
      have : dec j = some _ := (bind_of_some hs).trans (bind_of_some h0)
      rw [this]; rfl
  · intro j s x hs hx
    obtain ⟨s', hs', h0⟩ := dec_inv hx
    cases hs'.symm.trans hs
    have e0 : fld "languageIds" (encList Json.str x.languageIds) = put "languageIds" none (clean (.list .str) ((s.get 0 "languageIds").getD Absent.required.tree)) :=
      put_fld ((g0 s).2 _ h0)
    simp only [enc, e0, tyFields, allClean, List.append_assoc, List.append_nil]

end DebugProvider

/-! ### ServerCapabilities -/

namespace ServerCapabilities

/-- The members. bsp-types/src/server_capabilities.rs:5-57. -/
def tyFields : Fields :=
  .cons "compileProvider" .optional (some (.null)) (.opt CompileProvider.ty) <|
  .cons "testProvider" .optional (some (.null)) (.opt TestProvider.ty) <|
  .cons "runProvider" .optional (some (.null)) (.opt RunProvider.ty) <|
  .cons "debugProvider" .optional (some (.null)) (.opt DebugProvider.ty) <|
  .cons "inverseSourcesProvider" .optional (some (.null)) (.opt .bool) <|
  .cons "dependencySourcesProvider" .optional (some (.null)) (.opt .bool) <|
  .cons "dependencyModulesProvider" .optional (some (.null)) (.opt .bool) <|
  .cons "resourcesProvider" .optional (some (.null)) (.opt .bool) <|
  .cons "canReload" .optional (some (.null)) (.opt .bool) <|
  .cons "buildTargetChangedProvider" .optional (some (.null)) (.opt .bool) <|
  .nil

/-- The schema. bsp-types/src/server_capabilities.rs:5-57. -/
def ty : Ty := .struct tyFields

theorem follows [Ext] : Follows ty dec enc := by
  have g0 : ∀ s : Src, Got s 0 "compileProvider" .optional (.opt CompileProvider.ty) (s.opt 0 "compileProvider" CompileProvider.dec) (encOpt CompileProvider.enc) :=
    fun s => got_opt CompileProvider.follows s
  have g1 : ∀ s : Src, Got s 1 "testProvider" .optional (.opt TestProvider.ty) (s.opt 1 "testProvider" TestProvider.dec) (encOpt TestProvider.enc) :=
    fun s => got_opt TestProvider.follows s
  have g2 : ∀ s : Src, Got s 2 "runProvider" .optional (.opt RunProvider.ty) (s.opt 2 "runProvider" RunProvider.dec) (encOpt RunProvider.enc) :=
    fun s => got_opt RunProvider.follows s
  have g3 : ∀ s : Src, Got s 3 "debugProvider" .optional (.opt DebugProvider.ty) (s.opt 3 "debugProvider" DebugProvider.dec) (encOpt DebugProvider.enc) :=
    fun s => got_opt DebugProvider.follows s
  have g4 : ∀ s : Src, Got s 4 "inverseSourcesProvider" .optional (.opt .bool) (s.opt 4 "inverseSourcesProvider" decBool) (encOpt Json.bool) :=
    fun s => got_opt follows_bool s
  have g5 : ∀ s : Src, Got s 5 "dependencySourcesProvider" .optional (.opt .bool) (s.opt 5 "dependencySourcesProvider" decBool) (encOpt Json.bool) :=
    fun s => got_opt follows_bool s
  have g6 : ∀ s : Src, Got s 6 "dependencyModulesProvider" .optional (.opt .bool) (s.opt 6 "dependencyModulesProvider" decBool) (encOpt Json.bool) :=
    fun s => got_opt follows_bool s
  have g7 : ∀ s : Src, Got s 7 "resourcesProvider" .optional (.opt .bool) (s.opt 7 "resourcesProvider" decBool) (encOpt Json.bool) :=
    fun s => got_opt follows_bool s
  have g8 : ∀ s : Src, Got s 8 "canReload" .optional (.opt .bool) (s.opt 8 "canReload" decBool) (encOpt Json.bool) :=
    fun s => got_opt follows_bool s
  have g9 : ∀ s : Src, Got s 9 "buildTargetChangedProvider" .optional (.opt .bool) (s.opt 9 "buildTargetChangedProvider" decBool) (encOpt Json.bool) :=
    fun s => got_opt follows_bool s
  refine follows_struct (fields := fields) rfl (fun j h => by simp only [dec, h]; rfl) ?_ ?_
  · intro j s hs
    constructor
    · intro h
      obtain ⟨x, hx⟩ := Option.isSome_iff_exists.1 h
      obtain ⟨s', hs', h0, h1, h2, h3, h4, h5, h6, h7, h8, h9⟩ := dec_inv hx
      cases hs'.symm.trans hs
      exact ⟨(g0 s).ok h0, (g1 s).ok h1, (g2 s).ok h2, (g3 s).ok h3, (g4 s).ok h4, (g5 s).ok h5, (g6 s).ok h6, (g7 s).ok h7, (g8 s).ok h8, (g9 s).ok h9, trivial⟩
    · rintro ⟨o0, o1, o2, o3, o4, o5, o6, o7, o8, o9, -⟩
      obtain ⟨a0, h0⟩ := (g0 s).some o0
      obtain ⟨a1, h1⟩ := (g1 s).some o1
      obtain ⟨a2, h2⟩ := (g2 s).some o2
      obtain ⟨a3, h3⟩ := (g3 s).some o3
      obtain ⟨a4, h4⟩ := (g4 s).some o4
      obtain ⟨a5, h5⟩ := (g5 s).some o5
      obtain ⟨a6, h6⟩ := (g6 s).some o6
      obtain ⟨a7, h7⟩ := (g7 s).some o7
      obtain ⟨a8, h8⟩ := (g8 s).some o8
      obtain ⟨a9, h9⟩ := (g9 s).some o9
      have : dec j = some _ := (bind_of_some hs).trans ((bind_of_some h0).trans ((bind_of_some h1).trans ((bind_of_some h2).trans ((bind_of_some h3).trans ((bind_of_some h4).trans ((bind_of_some h5).trans ((bind_of_some h6).trans ((bind_of_some h7).trans ((bind_of_some h8).trans (bind_of_some h9))))))))))
      rw [this]; rfl
  · intro j s x hs hx
    obtain ⟨s', hs', h0, h1, h2, h3, h4, h5, h6, h7, h8, h9⟩ := dec_inv hx
    cases hs'.symm.trans hs
    have e0 : skipNone "compileProvider" CompileProvider.enc x.compileProvider = put "compileProvider" (some (.null)) (clean (.opt CompileProvider.ty) ((s.get 0 "compileProvider").getD Absent.optional.tree)) :=
      put_skipNone ((g0 s).2 _ h0) (by simp [CompileProvider.enc])
    have e1 : skipNone "testProvider" TestProvider.enc x.testProvider = put "testProvider" (some (.null)) (clean (.opt TestProvider.ty) ((s.get 1 "testProvider").getD Absent.optional.tree)) :=
      put_skipNone ((g1 s).2 _ h1) (by simp [TestProvider.enc])
    have e2 : skipNone "runProvider" RunProvider.enc x.runProvider = put "runProvider" (some (.null)) (clean (.opt RunProvider.ty) ((s.get 2 "runProvider").getD Absent.optional.tree)) :=
      put_skipNone ((g2 s).2 _ h2) (by simp [RunProvider.enc])
    have e3 : skipNone "debugProvider" DebugProvider.enc x.debugProvider = put "debugProvider" (some (.null)) (clean (.opt DebugProvider.ty) ((s.get 3 "debugProvider").getD Absent.optional.tree)) :=
      put_skipNone ((g3 s).2 _ h3) (by simp [DebugProvider.enc])
    have e4 : skipNone "inverseSourcesProvider" Json.bool x.inverseSourcesProvider = put "inverseSourcesProvider" (some (.null)) (clean (.opt .bool) ((s.get 4 "inverseSourcesProvider").getD Absent.optional.tree)) :=
      put_skipNone ((g4 s).2 _ h4) (by simp)
    have e5 : skipNone "dependencySourcesProvider" Json.bool x.dependencySourcesProvider = put "dependencySourcesProvider" (some (.null)) (clean (.opt .bool) ((s.get 5 "dependencySourcesProvider").getD Absent.optional.tree)) :=
      put_skipNone ((g5 s).2 _ h5) (by simp)
    have e6 : skipNone "dependencyModulesProvider" Json.bool x.dependencyModulesProvider = put "dependencyModulesProvider" (some (.null)) (clean (.opt .bool) ((s.get 6 "dependencyModulesProvider").getD Absent.optional.tree)) :=
      put_skipNone ((g6 s).2 _ h6) (by simp)
    have e7 : skipNone "resourcesProvider" Json.bool x.resourcesProvider = put "resourcesProvider" (some (.null)) (clean (.opt .bool) ((s.get 7 "resourcesProvider").getD Absent.optional.tree)) :=
      put_skipNone ((g7 s).2 _ h7) (by simp)
    have e8 : skipNone "canReload" Json.bool x.canReload = put "canReload" (some (.null)) (clean (.opt .bool) ((s.get 8 "canReload").getD Absent.optional.tree)) :=
      put_skipNone ((g8 s).2 _ h8) (by simp)
    have e9 : skipNone "buildTargetChangedProvider" Json.bool x.buildTargetChangedProvider = put "buildTargetChangedProvider" (some (.null)) (clean (.opt .bool) ((s.get 9 "buildTargetChangedProvider").getD Absent.optional.tree)) :=
      put_skipNone ((g9 s).2 _ h9) (by simp)
    simp only [enc, e0, e1, e2, e3, e4, e5, e6, e7, e8, e9, tyFields, allClean, List.append_assoc, List.append_nil]

end ServerCapabilities

/-! ### InitializeBuildResult -/

namespace InitializeBuildResult

/-- The members. bsp-types/src/initialize_result.rs:6-20. -/
def tyFields : Fields :=
  .cons "displayName" .required none .str <|
  .cons "version" .required none .str <|
  .cons "bspVersion" .required none .str <|
  .cons "capabilities" .required none ServerCapabilities.ty <|
  .cons "data" .optional (some (.null)) (.opt .any) <|
  .nil

/-- The schema. bsp-types/src/initialize_result.rs:6-20. -/
def ty : Ty := .struct tyFields

theorem follows [Ext] : Follows ty dec enc := by
  have g0 : ∀ s : Src, Got s 0 "displayName" .required (.str) (s.req 0 "displayName" decStr) (Json.str) :=
    fun s => got_req follows_str s
  have g1 : ∀ s : Src, Got s 1 "version" .required (.str) (s.req 1 "version" decStr) (Json.str) :=
    fun s => got_req follows_str s
  have g2 : ∀ s : Src, Got s 2 "bspVersion" .required (.str) (s.req 2 "bspVersion" decStr) (Json.str) :=
    fun s => got_req follows_str s
  have g3 : ∀ s : Src, Got s 3 "capabilities" .required (ServerCapabilities.ty) (s.req 3 "capabilities" ServerCapabilities.dec) (ServerCapabilities.enc) :=
    fun s => got_req ServerCapabilities.follows s
  have g4 : ∀ s : Src, Got s 4 "data" .optional (.opt .any) (s.opt 4 "data" decValue) (encOpt Value.json) :=
    fun s => got_opt follows_value s
  refine follows_struct (fields := fields) rfl (fun j h => by simp only [dec, h]; rfl) ?_ ?_
  · intro j s hs
    constructor
    · intro h
      obtain ⟨x, hx⟩ := Option.isSome_iff_exists.1 h
      obtain ⟨s', hs', h0, h1, h2, h3, h4⟩ := dec_inv hx
      cases hs'.symm.trans hs
      exact ⟨(g0 s).ok h0, (g1 s).ok h1, (g2 s).ok h2, (g3 s).ok h3, (g4 s).ok h4, trivial⟩
    · rintro ⟨o0, o1, o2, o3, o4, -⟩
      obtain ⟨a0, h0⟩ := (g0 s).some o0
      obtain ⟨a1, h1⟩ := (g1 s).some o1
      obtain ⟨a2, h2⟩ := (g2 s).some o2
      obtain ⟨a3, h3⟩ := (g3 s).some o3
      obtain ⟨a4, h4⟩ := (g4 s).some o4
      have : dec j = some _ := (bind_of_some hs).trans ((bind_of_some h0).trans ((bind_of_some h1).trans ((bind_of_some h2).trans ((bind_of_some h3).trans (bind_of_some h4)))))
      rw [this]; rfl
  · intro j s x hs hx
    obtain ⟨s', hs', h0, h1, h2, h3, h4⟩ := dec_inv hx
    cases hs'.symm.trans hs
    have e0 : fld "displayName" (Json.str x.displayName) = put "displayName" none (clean (.str) ((s.get 0 "displayName").getD Absent.required.tree)) :=
      put_fld ((g0 s).2 _ h0)
    have e1 : fld "version" (Json.str x.version) = put "version" none (clean (.str) ((s.get 1 "version").getD Absent.required.tree)) :=
      put_fld ((g1 s).2 _ h1)
    have e2 : fld "bspVersion" (Json.str x.bspVersion) = put "bspVersion" none (clean (.str) ((s.get 2 "bspVersion").getD Absent.required.tree)) :=
      put_fld ((g2 s).2 _ h2)
    have e3 : fld "capabilities" (ServerCapabilities.enc x.capabilities) = put "capabilities" none (clean (ServerCapabilities.ty) ((s.get 3 "capabilities").getD Absent.required.tree)) :=
      put_fld ((g3 s).2 _ h3)
    have e4 : skipNone "data" Value.json x.data = put "data" (some (.null)) (clean (.opt .any) ((s.get 4 "data").getD Absent.optional.tree)) :=
      put_skipNone ((g4 s).2 _ h4) (fun v hv => Value.json_ne_null (opt_value_plain h4) hv)
    simp only [enc, e0, e1, e2, e3, e4, tyFields, allClean, List.append_assoc, List.append_nil]

end InitializeBuildResult

/-! ### BuildTargetCapabilities -/

namespace BuildTargetCapabilities

/-- The members. bsp-types/src/bt_capabilities.rs:4-18. -/
def tyFields : Fields :=
  .cons "canCompile" .required none .bool <|
  .cons "canTest" .required none .bool <|
  .cons "canRun" .required none .bool <|
  .cons "canDebug" .required none .bool <|
  .nil

/-- The schema. bsp-types/src/bt_capabilities.rs:4-18. -/
def ty : Ty := .struct tyFields

theorem follows [Ext] : Follows ty dec enc := by
  have g0 : ∀ s : Src, Got s 0 "canCompile" .required (.bool) (s.req 0 "canCompile" decBool) (Json.bool) :=
    fun s => got_req follows_bool s
  have g1 : ∀ s : Src, Got s 1 "canTest" .required (.bool) (s.req 1 "canTest" decBool) (Json.bool) :=
    fun s => got_req follows_bool s
  have g2 : ∀ s : Src, Got s 2 "canRun" .required (.bool) (s.req 2 "canRun" decBool) (Json.bool) :=
    fun s => got_req follows_bool s
  have g3 : ∀ s : Src, Got s 3 "canDebug" .required (.bool) (s.req 3 "canDebug" decBool) (Json.bool) :=
    fun s => got_req follows_bool s
  refine follows_struct (fields := fields) rfl (fun j h => by simp only [dec, h]; rfl) ?_ ?_
  · intro j s hs
    constructor
    · intro h
      obtain ⟨x, hx⟩ := Option.isSome_iff_exists.1 h
      obtain ⟨s', hs', h0, h1, h2, h3⟩ := dec_inv hx
      cases hs'.symm.trans hs
      exact ⟨(g0 s).ok h0, (g1 s).ok h1, (g2 s).ok h2, (g3 s).ok h3, trivial⟩
    · rintro ⟨o0, o1, o2, o3, -⟩
      obtain ⟨a0, h0⟩ := (g0 s).some o0
      obtain ⟨a1, h1⟩ := (g1 s).some o1
      obtain ⟨a2, h2⟩ := (g2 s).some o2
      obtain ⟨a3, h3⟩ := (g3 s).some o3
      have : dec j = some _ := (bind_of_some hs).trans ((bind_of_some h0).trans ((bind_of_some h1).trans ((bind_of_some h2).trans (bind_of_some h3))))
      rw [this]; rfl
  · intro j s x hs hx
    obtain ⟨s', hs', h0, h1, h2, h3⟩ := dec_inv hx
    cases hs'.symm.trans hs
    have e0 : fld "canCompile" (Json.bool x.canCompile) = put "canCompile" none (clean (.bool) ((s.get 0 "canCompile").getD Absent.required.tree)) :=
      put_fld ((g0 s).2 _ h0)
    have e1 : fld "canTest" (Json.bool x.canTest) = put "canTest" none (clean (.bool) ((s.get 1 "canTest").getD Absent.required.tree)) :=
      put_fld ((g1 s).2 _ h1)
    have e2 : fld "canRun" (Json.bool x.canRun) = put "canRun" none (clean (.bool) ((s.get 2 "canRun").getD Absent.required.tree)) :=
      put_fld ((g2 s).2 _ h2)
    have e3 : fld "canDebug" (Json.bool x.canDebug) = put "canDebug" none (clean (.bool) ((s.get 3 "canDebug").getD Absent.required.tree)) :=
      put_fld ((g3 s).2 _ h3)
    simp only [enc, e0, e1, e2, e3, tyFields, allClean, List.append_assoc, List.append_nil]

end BuildTargetCapabilities

/-! ### BuildTarget -/

namespace BuildTarget

/-- The members. bsp-types/src/workspace_build_targets.rs:15-54. -/
def tyFields : Fields :=
  .cons "id" .required none BuildTargetIdentifier.ty <|
  .cons "displayName" .optional (some (.null)) (.opt .str) <|
  .cons "baseDirectory" .optional (some (.null)) (.opt .str) <|
  .cons "tags" .required none (.list .tag) <|
  .cons "capabilities" .required none BuildTargetCapabilities.ty <|
  .cons "languageIds" .required none (.list .str) <|
  .cons "dependencies" .required none (.list BuildTargetIdentifier.ty) <|
  .nil

/-- The schema. bsp-types/src/workspace_build_targets.rs:15-54. -/
def ty : Ty := .struct tyFields

theorem follows [Ext] : Follows ty dec enc := by
  have g0 : ∀ s : Src, Got s 0 "id" .required (BuildTargetIdentifier.ty) (s.req 0 "id" BuildTargetIdentifier.dec) (BuildTargetIdentifier.enc) :=
    fun s => got_req BuildTargetIdentifier.follows s
  have g1 : ∀ s : Src, Got s 1 "displayName" .optional (.opt .str) (s.opt 1 "displayName" decStr) (encOpt Json.str) :=
    fun s => got_opt follows_str s
  have g2 : ∀ s : Src, Got s 2 "baseDirectory" .optional (.opt .str) (s.opt 2 "baseDirectory" decStr) (encOpt Json.str) :=
    fun s => got_opt follows_str s
  have g3 : ∀ s : Src, Got s 3 "tags" .required (.list .tag) (s.req 3 "tags" (decList BuildTargetTag.dec)) (encList BuildTargetTag.enc) :=
    fun s => got_req (follows_list follows_buildTargetTag) s
  have g4 : ∀ s : Src, Got s 4 "capabilities" .required (BuildTargetCapabilities.ty) (s.req 4 "capabilities" BuildTargetCapabilities.dec) (BuildTargetCapabilities.enc) :=
    fun s => got_req BuildTargetCapabilities.follows s
  have g5 : ∀ s : Src, Got s 5 "languageIds" .required (.list .str) (s.req 5 "languageIds" (decList decStr)) (encList Json.str) :=
    fun s => got_req (follows_list follows_str) s
  have g6 : ∀ s : Src, Got s 6 "dependencies" .required (.list BuildTargetIdentifier.ty) (s.req 6 "dependencies" (decList BuildTargetIdentifier.dec)) (encList BuildTargetIdentifier.enc) :=
    fun s => got_req (follows_list BuildTargetIdentifier.follows) s
  refine follows_struct (fields := fields) rfl (fun j h => by simp only [dec, h]; rfl) ?_ ?_
  · intro j s hs
    constructor
    · intro h
      obtain ⟨x, hx⟩ := Option.isSome_iff_exists.1 h
      obtain ⟨s', hs', h0, h1, h2, h3, h4, h5, h6⟩ := dec_inv hx
      cases hs'.symm.trans hs
      exact ⟨(g0 s).ok h0, (g1 s).ok h1, (g2 s).ok h2, (g3 s).ok h3, (g4 s).ok h4, (g5 s).ok h5, (g6 s).ok h6, trivial⟩
    · rintro ⟨o0, o1, o2, o3, o4, o5, o6, -⟩
      obtain ⟨a0, h0⟩ := (g0 s).some o0
      obtain ⟨a1, h1⟩ := (g1 s).some o1
      obtain ⟨a2, h2⟩ := (g2 s).some o2
      obtain ⟨a3, h3⟩ := (g3 s).some o3
      obtain ⟨a4, h4⟩ := (g4 s).some o4
      obtain ⟨a5, h5⟩ := (g5 s).some o5
      obtain ⟨a6, h6⟩ := (g6 s).some o6
      have : dec j = some _ := (bind_of_some hs).trans ((bind_of_some h0).trans ((bind_of_some h1).trans ((bind_of_some h2).trans ((bind_of_some h3).trans ((bind_of_some h4).trans ((bind_of_some h5).trans (bind_of_some h6)))))))
      rw [this]; rfl
  · intro j s x hs hx
    obtain ⟨s', hs', h0, h1, h2, h3, h4, h5, h6⟩ := dec_inv hx
    cases hs'.symm.trans hs
    have e0 : fld "id" (BuildTargetIdentifier.enc x.id) = put "id" none (clean (BuildTargetIdentifier.ty) ((s.get 0 "id").getD Absent.required.tree)) :=
      put_fld ((g0 s).2 _ h0)
    have e1 : skipNone "displayName" Json.str x.displayName = put "displayName" (some (.null)) (clean (.opt .str) ((s.get 1 "displayName").getD Absent.optional.tree)) :=
      put_skipNone ((g1 s).2 _ h1) (by simp)
    have e2 : skipNone "baseDirectory" Json.str x.baseDirectory = put "baseDirectory" (some (.null)) (clean (.opt .str) ((s.get 2 "baseDirectory").getD Absent.optional.tree)) :=
      put_skipNone ((g2 s).2 _ h2) (by simp)
    have e3 : fld "tags" (encList BuildTargetTag.enc x.tags) = put "tags" none (clean (.list .tag) ((s.get 3 "tags").getD Absent.required.tree)) :=
      put_fld ((g3 s).2 _ h3)
    have e4 : fld "capabilities" (BuildTargetCapabilities.enc x.capabilities) = put "capabilities" none (clean (BuildTargetCapabilities.ty) ((s.get 4 "capabilities").getD Absent.required.tree)) :=
      put_fld ((g4 s).2 _ h4)
    have e5 : fld "languageIds" (encList Json.str x.languageIds) = put "languageIds" none (clean (.list .str) ((s.get 5 "languageIds").getD Absent.required.tree)) :=
      put_fld ((g5 s).2 _ h5)
    have e6 : fld "dependencies" (encList BuildTargetIdentifier.enc x.dependencies) = put "dependencies" none (clean (.list BuildTargetIdentifier.ty) ((s.get 6 "dependencies").getD Absent.required.tree)) :=
      put_fld ((g6 s).2 _ h6)
    simp only [enc, e0, e1, e2, e3, e4, e5, e6, tyFields, allClean, List.append_assoc, List.append_nil]

end BuildTarget

/-! ### WorkspaceBuildTargetsResult -/

namespace WorkspaceBuildTargetsResult

/-- The members. bsp-types/src/workspace_build_targets.rs:9-12. -/
def tyFields : Fields :=
  .cons "targets" .required none (.list BuildTarget.ty) <|
  .nil

/-- The schema. bsp-types/src/workspace_build_targets.rs:9-12. -/
def ty : Ty := .struct tyFields

theorem follows [Ext] : Follows ty dec enc := by
  have g0 : ∀ s : Src, Got s 0 "targets" .required (.list BuildTarget.ty) (s.req 0 "targets" (decList BuildTarget.dec)) (encList BuildTarget.enc) :=
    fun s => got_req (follows_list BuildTarget.follows) s
  refine follows_struct (fields := fields) rfl (fun j h => by simp only [dec, h]; rfl) ?_ ?_
  · intro j s hs
    constructor
    · intro h
      obtain ⟨x, hx⟩ := Option.isSome_iff_exists.1 h
      obtain ⟨s', hs', h0⟩ := dec_inv hx
      cases hs'.symm.trans hs
      exact ⟨(g0 s).ok h0, trivial⟩
    · rintro ⟨o0, -⟩
      obtain ⟨a0, h0⟩ := (g0 s).some o0
      have : dec j = some _ := (bind_of_some hs).trans (bind_of_some h0)
      rw [this]; rfl
  · intro j s x hs hx
    obtain ⟨s', hs', h0⟩ := dec_inv hx
    cases hs'.symm.trans hs
    have e0 : fld "targets" (encList BuildTarget.enc x.targets) = put "targets" none (clean (.list BuildTarget.ty) ((s.get 0 "targets").getD Absent.required.tree)) :=
      put_fld ((g0 s).2 _ h0)
    simp only [enc, e0, tyFields, allClean, List.append_assoc, List.append_nil]

end WorkspaceBuildTargetsResult

/-! ### DebugSessionStartResult -/

namespace DebugSessionStartResult

/-- The members. bsp-types/src/debug_session_start.rs:64-68. -/
def tyFields : Fields :=
  .cons "uri" .required none .url <|
  .nil

/-- The schema. bsp-types/src/debug_session_start.rs:64-68. -/
def ty : Ty := .struct tyFields

theorem follows [Ext] : Follows ty dec enc := by
  have g0 : ∀ s : Src, Got s 0 "uri" .required (.url) (s.req 0 "uri" decUrl) (encUrl) :=
    fun s => got_req follows_url s
  refine follows_struct (fields := fields) rfl (fun j h => by simp only [dec, h]; rfl) ?_ ?_
  · intro j s hs
    constructor
    · intro h
      obtain ⟨x, hx⟩ := Option.isSome_iff_exists.1 h
      obtain ⟨s', hs', h0⟩ := dec_inv hx
      cases hs'.symm.trans hs
      exact ⟨(g0 s).ok h0, trivial⟩
    · rintro ⟨o0, -⟩
      obtain ⟨a0, h0⟩ := (g0 s).some o0
      have : dec j = some _ := (bind_of_some hs).trans (bind_of_some h0)
      rw [this]; rfl
  · intro j s x hs hx
    obtain ⟨s', hs', h0⟩ := dec_inv hx
    cases hs'.symm.trans hs
    have e0 : fld "uri" (encUrl x.uri) = put "uri" none (clean (.url) ((s.get 0 "uri").getD Absent.required.tree)) :=
      put_fld ((g0 s).2 _ h0)
    simp only [enc, e0, tyFields, allClean, List.append_assoc, List.append_nil]

end DebugSessionStartResult

/-! ### Sources -/

namespace Sources

/-- The members. bsp-types/src/bt_sources.rs:85-98. -/
def tyFields : Fields :=
  .cons "uri" .required none .url <|
  .cons "kind" .required none (.codes [1, 2]) <|
  .cons "generated" .required none .bool <|
  .nil

/-- The schema. bsp-types/src/bt_sources.rs:85-98. -/
def ty : Ty := .struct tyFields

theorem follows [Ext] : Follows ty dec enc := by
  have g0 : ∀ s : Src, Got s 0 "uri" .required (.url) (s.req 0 "uri" decUrl) (encUrl) :=
    fun s => got_req follows_url s
  have g1 : ∀ s : Src, Got s 1 "kind" .required (.codes [1, 2]) (s.req 1 "kind" SourceKind.dec) (SourceKind.enc) :=
    fun s => got_req follows_sourceKind s
  have g2 : ∀ s : Src, Got s 2 "generated" .required (.bool) (s.req 2 "generated" decBool) (Json.bool) :=
    fun s => got_req follows_bool s
  refine follows_struct (fields := fields) rfl (fun j h => by simp only [dec, h]; rfl) ?_ ?_
  · intro j s hs
    constructor
    · intro h
      obtain ⟨x, hx⟩ := Option.isSome_iff_exists.1 h
      obtain ⟨s', hs', h0, h1, h2⟩ := dec_inv hx
      cases hs'.symm.trans hs
      exact ⟨(g0 s).ok h0, (g1 s).ok h1, (g2 s).ok h2, trivial⟩
    · rintro ⟨o0, o1, o2, -⟩
      obtain ⟨a0, h0⟩ := (g0 s).some o0
      obtain ⟨a1, h1⟩ := (g1 s).some o1
      obtain ⟨a2, h2⟩ := (g2 s).some o2
      have : dec j = some _ := (bind_of_some hs).trans ((bind_of_some h0).trans ((bind_of_some h1).trans (bind_of_some h2)))
      rw [this]; rfl
  · intro j s x hs hx
    obtain ⟨s', hs', h0, h1, h2⟩ := dec_inv hx
    cases hs'.symm.trans hs
    have e0 : fld "uri" (encUrl x.uri) = put "uri" none (clean (.url) ((s.get 0 "uri").getD Absent.required.tree)) :=
      put_fld ((g0 s).2 _ h0)
    have e1 : fld "kind" (SourceKind.enc x.kind) = put "kind" none (clean (.codes [1, 2]) ((s.get 1 "kind").getD Absent.required.tree)) :=
      put_fld ((g1 s).2 _ h1)
    have e2 : fld "generated" (Json.bool x.generated) = put "generated" none (clean (.bool) ((s.get 2 "generated").getD Absent.required.tree)) :=
      put_fld ((g2 s).2 _ h2)
    simp only [enc, e0, e1, e2, tyFields, allClean, List.append_assoc, List.append_nil]

end Sources

/-! ### SourcesCollection -/

namespace SourcesCollection

/-- The members. bsp-types/src/bt_sources.rs:51-57. -/
def tyFields : Fields :=
  .cons "target" .required none BuildTargetIdentifier.ty <|
  .cons "sources" .required none (.list Sources.ty) <|
  .nil

/-- The schema. bsp-types/src/bt_sources.rs:51-57. -/
def ty : Ty := .struct tyFields

theorem follows [Ext] : Follows ty dec enc := by
  have g0 : ∀ s : Src, Got s 0 "target" .required (BuildTargetIdentifier.ty) (s.req 0 "target" BuildTargetIdentifier.dec) (BuildTargetIdentifier.enc) :=
    fun s => got_req BuildTargetIdentifier.follows s
  have g1 : ∀ s : Src, Got s 1 "sources" .required (.list Sources.ty) (s.req 1 "sources" (decList Sources.dec)) (encList Sources.enc) :=
    fun s => got_req (follows_list Sources.follows) s
  refine follows_struct (fields := fields) rfl (fun j h => by simp only [dec, h]; rfl) ?_ ?_
  · intro j s hs
    constructor
    · intro h
      obtain ⟨x, hx⟩ := Option.isSome_iff_exists.1 h
      obtain ⟨s', hs', h0, h1⟩ := dec_inv hx
      cases hs'.symm.trans hs
      exact ⟨(g0 s).ok h0, (g1 s).ok h1, trivial⟩
    · rintro ⟨o0, o1, -⟩
      obtain ⟨a0, h0⟩ := (g0 s).some o0
      obtain ⟨a1, h1⟩ := (g1 s).some o1
      have : dec j = some _ := (bind_of_some hs).trans ((bind_of_some h0).trans (bind_of_some h1))
      rw [this]; rfl
  · intro j s x hs hx
    obtain ⟨s', hs', h0, h1⟩ := dec_inv hx
    cases hs'.symm.trans hs
    have e0 : fld "target" (BuildTargetIdentifier.enc x.target) = put "target" none (clean (BuildTargetIdentifier.ty) ((s.get 0 "target").getD Absent.required.tree)) :=
      put_fld ((g0 s).2 _ h0)
    have e1 : fld "sources" (encList Sources.enc x.sources) = put "sources" none (clean (.list Sources.ty) ((s.get 1 "sources").getD Absent.required.tree)) :=
      put_fld ((g1 s).2 _ h1)
    simp only [enc, e0, e1, tyFields, allClean, List.append_assoc, List.append_nil]

end SourcesCollection

/-! ### BuildTargetSourcesResult -/

namespace BuildTargetSourcesResult

/-- The members. bsp-types/src/bt_sources.rs:30-33. -/
def tyFields : Fields :=
  .cons "items" .required none (.list SourcesCollection.ty) <|
  .nil

/-- The schema. bsp-types/src/bt_sources.rs:30-33. -/
def ty : Ty := .struct tyFields

theorem follows [Ext] : Follows ty dec enc := by
  have g0 : ∀ s : Src, Got s 0 "items" .required (.list SourcesCollection.ty) (s.req 0 "items" (decList SourcesCollection.dec)) (encList SourcesCollection.enc) :=
    fun s => got_req (follows_list SourcesCollection.follows) s
  refine follows_struct (fields := fields) rfl (fun j h => by simp only [dec, h]; rfl) ?_ ?_
  · intro j s hs
    constructor
    · intro h
      obtain ⟨x, hx⟩ := Option.isSome_iff_exists.1 h
      obtain ⟨s', hs', h0⟩ := dec_inv hx
      cases hs'.symm.trans hs
      exact ⟨(g0 s).ok h0, trivial⟩
    · rintro ⟨o0, -⟩
      obtain ⟨a0, h0⟩ := (g0 s).some o0
      have : dec j = some _ := (bind_of_some hs).trans (bind_of_some h0)
      rw [this]; rfl
  · intro j s x hs hx
    obtain ⟨s', hs', h0⟩ := dec_inv hx
    cases hs'.symm.trans hs
    have e0 : fld "items" (encList SourcesCollection.enc x.items) = put "items" none (clean (.list SourcesCollection.ty) ((s.get 0 "items").getD Absent.required.tree)) :=
      put_fld ((g0 s).2 _ h0)
    simp only [enc, e0, tyFields, allClean, List.append_assoc, List.append_nil]

end BuildTargetSourcesResult

/-! ### BuildTargetCompileResult -/

namespace BuildTargetCompileResult

/-- The members. bsp-types/src/bt_compile.rs:75-93. -/
def tyFields : Fields :=
  .cons "originId" .optional (some (.null)) (.opt .str) <|
  .cons "statusCode" .required none (.int 0 (2 ^ 64)) <|
  .cons "dataKind" .optional (some (.null)) (.opt .str) <|
  .cons "data" .optional (some (.null)) (.opt .any) <|
  .nil

/-- The schema. bsp-types/src/bt_compile.rs:75-93. -/
def ty : Ty := .struct tyFields

theorem follows [Ext] : Follows ty dec enc := by
  have g0 : ∀ s : Src, Got s 0 "originId" .optional (.opt .str) (s.opt 0 "originId" decStr) (encOpt Json.str) :=
    fun s => got_opt follows_str s
  have g1 : ∀ s : Src, Got s 1 "statusCode" .required (.int 0 (2 ^ 64)) (s.req 1 "statusCode" decUsize) (encUsize) :=
    fun s => got_req follows_usize s
  have g2 : ∀ s : Src, Got s 2 "dataKind" .optional (.opt .str) (s.opt 2 "dataKind" decStr) (encOpt Json.str) :=
    fun s => got_opt follows_str s
  have g3 : ∀ s : Src, Got s 3 "data" .optional (.opt .any) (s.opt 3 "data" decValue) (encOpt Value.json) :=
    fun s => got_opt follows_value s
  refine follows_struct (fields := fields) rfl (fun j h => by simp only [dec, h]; rfl) ?_ ?_
  · intro j s hs
    constructor
    · intro h
      obtain ⟨x, hx⟩ := Option.isSome_iff_exists.1 h
      obtain ⟨s', hs', h0, h1, h2, h3⟩ := dec_inv hx
      cases hs'.symm.trans hs
      exact ⟨(g0 s).ok h0, (g1 s).ok h1, (g2 s).ok h2, (g3 s).ok h3, trivial⟩
    · rintro ⟨o0, o1, o2, o3, -⟩
      obtain ⟨a0, h0⟩ := (g0 s).some o0
      obtain ⟨a1, h1⟩ := (g1 s).some o1
      obtain ⟨a2, h2⟩ := (g2 s).some o2
      obtain ⟨a3, h3⟩ := (g3 s).some o3
      have : dec j = some _ := (bind_of_some hs).trans ((bind_of_some h0).trans ((bind_of_some h1).trans ((bind_of_some h2).trans (bind_of_some h3))))
      rw [this]; rfl
  · intro j s x hs hx
    obtain ⟨s', hs', h0, h1, h2, h3⟩ := dec_inv hx
    cases hs'.symm.trans hs
    have e0 : skipNone "originId" Json.str x.originId = put "originId" (some (.null)) (clean (.opt .str) ((s.get 0 "originId").getD Absent.optional.tree)) :=
      put_skipNone ((g0 s).2 _ h0) (by simp)
    have e1 : fld "statusCode" (encUsize x.statusCode) = put "statusCode" none (clean (.int 0 (2 ^ 64)) ((s.get 1 "statusCode").getD Absent.required.tree)) :=
      put_fld ((g1 s).2 _ h1)
    have e2 : skipNone "dataKind" Json.str x.dataKind = put "dataKind" (some (.null)) (clean (.opt .str) ((s.get 2 "dataKind").getD Absent.optional.tree)) :=
      put_skipNone ((g2 s).2 _ h2) (by simp)
    have e3 : skipNone "data" Value.json x.data = put "data" (some (.null)) (clean (.opt .any) ((s.get 3 "data").getD Absent.optional.tree)) :=
      put_skipNone ((g3 s).2 _ h3) (fun v hv => Value.json_ne_null (opt_value_plain h3) hv)
    simp only [enc, e0, e1, e2, e3, tyFields, allClean, List.append_assoc, List.append_nil]

end BuildTargetCompileResult

/-! ### BuildTargetTestResult -/

namespace BuildTargetTestResult

/-- The members. bsp-types/src/bt_test.rs:111-129. -/
def tyFields : Fields :=
  .cons "originId" .optional (some (.null)) (.opt .str) <|
  .cons "statusCode" .required none (.int 0 (2 ^ 64)) <|
  .cons "dataKind" .optional (some (.null)) (.opt .str) <|
  .cons "data" .optional (some (.null)) (.opt .any) <|
  .nil

/-- The schema. bsp-types/src/bt_test.rs:111-129. -/
def ty : Ty := .struct tyFields

theorem follows [Ext] : Follows ty dec enc := by
  have g0 : ∀ s : Src, Got s 0 "originId" .optional (.opt .str) (s.opt 0 "originId" decStr) (encOpt Json.str) :=
    fun s => got_opt follows_str s
  have g1 : ∀ s : Src, Got s 1 "statusCode" .required (.int 0 (2 ^ 64)) (s.req 1 "statusCode" decUsize) (encUsize) :=
    fun s => got_req follows_usize s
  have g2 : ∀ s : Src, Got s 2 "dataKind" .optional (.opt .str) (s.opt 2 "dataKind" decStr) (encOpt Json.str) :=
    fun s => got_opt follows_str s
  have g3 : ∀ s : Src, Got s 3 "data" .optional (.opt .any) (s.opt 3 "data" decValue) (encOpt Value.json) :=
    fun s => got_opt follows_value s
  refine follows_struct (fields := fields) rfl (fun j h => by simp only [dec, h]; rfl) ?_ ?_
  · intro j s hs
    constructor
    · intro h
      obtain ⟨x, hx⟩ := Option.isSome_iff_exists.1 h
      obtain ⟨s', hs', h0, h1, h2, h3⟩ := dec_inv hx
      cases hs'.symm.trans hs
      exact ⟨(g0 s).ok h0, (g1 s).ok h1, (g2 s).ok h2, (g3 s).ok h3, trivial⟩
    · rintro ⟨o0, o1, o2, o3, -⟩
      obtain ⟨a0, h0⟩ := (g0 s).some o0
      obtain ⟨a1, h1⟩ := (g1 s).some o1
      obtain ⟨a2, h2⟩ := (g2 s).some o2
      obtain ⟨a3, h3⟩ := (g3 s).some o3
      have : dec j = some _ := (bind_of_some hs).trans ((bind_of_some h0).trans ((bind_of_some h1).trans ((bind_of_some h2).trans (bind_of_some h3))))
      rw [this]; rfl
  · intro j s x hs hx
    obtain ⟨s', hs', h0, h1, h2, h3⟩ := dec_inv hx
    cases hs'.symm.trans hs
    have e0 : skipNone "originId" Json.str x.originId = put "originId" (some (.null)) (clean (.opt .str) ((s.get 0 "originId").getD Absent.optional.tree)) :=
      put_skipNone ((g0 s).2 _ h0) (by simp)
    have e1 : fld "statusCode" (encUsize x.statusCode) = put "statusCode" none (clean (.int 0 (2 ^ 64)) ((s.get 1 "statusCode").getD Absent.required.tree)) :=
      put_fld ((g1 s).2 _ h1)
    have e2 : skipNone "dataKind" Json.str x.dataKind = put "dataKind" (some (.null)) (clean (.opt .str) ((s.get 2 "dataKind").getD Absent.optional.tree)) :=
      put_skipNone ((g2 s).2 _ h2) (by simp)
    have e3 : skipNone "data" Value.json x.data = put "data" (some (.null)) (clean (.opt .any) ((s.get 3 "data").getD Absent.optional.tree)) :=
      put_skipNone ((g3 s).2 _ h3) (fun v hv => Value.json_ne_null (opt_value_plain h3) hv)
    simp only [enc, e0, e1, e2, e3, tyFields, allClean, List.append_assoc, List.append_nil]

end BuildTargetTestResult

/-! ### BuildTargetRunResult -/

namespace BuildTargetRunResult

/-- The members. bsp-types/src/bt_run.rs:110-119. -/
def tyFields : Fields :=
  .cons "originId" .optional (some (.null)) (.opt .str) <|
  .cons "statusCode" .required none (.int 0 (2 ^ 64)) <|
  .nil

/-- The schema. bsp-types/src/bt_run.rs:110-119. -/
def ty : Ty := .struct tyFields

theorem follows [Ext] : Follows ty dec enc := by
  have g0 : ∀ s : Src, Got s 0 "originId" .optional (.opt .str) (s.opt 0 "originId" decStr) (encOpt Json.str) :=
    fun s => got_opt follows_str s
  have g1 : ∀ s : Src, Got s 1 "statusCode" .required (.int 0 (2 ^ 64)) (s.req 1 "statusCode" decUsize) (encUsize) :=
    fun s => got_req follows_usize s
  refine follows_struct (fields := fields) rfl (fun j h => by simp only [dec, h]; rfl) ?_ ?_
  · intro j s hs
    constructor
    · intro h
      obtain ⟨x, hx⟩ := Option.isSome_iff_exists.1 h
      obtain ⟨s', hs', h0, h1⟩ := dec_inv hx
      cases hs'.symm.trans hs
      exact ⟨(g0 s).ok h0, (g1 s).ok h1, trivial⟩
    · rintro ⟨o0, o1, -⟩
      obtain ⟨a0, h0⟩ := (g0 s).some o0
      obtain ⟨a1, h1⟩ := (g1 s).some o1
      have : dec j = some _ := (bind_of_some hs).trans ((bind_of_some h0).trans (bind_of_some h1))
      rw [this]; rfl
  · intro j s x hs hx
    obtain ⟨s', hs', h0, h1⟩ := dec_inv hx
    cases hs'.symm.trans hs
    have e0 : skipNone "originId" Json.str x.originId = put "originId" (some (.null)) (clean (.opt .str) ((s.get 0 "originId").getD Absent.optional.tree)) :=
      put_skipNone ((g0 s).2 _ h0) (by simp)
    have e1 : fld "statusCode" (encUsize x.statusCode) = put "statusCode" none (clean (.int 0 (2 ^ 64)) ((s.get 1 "statusCode").getD Absent.required.tree)) :=
      put_fld ((g1 s).2 _ h1)
    simp only [enc, e0, e1, tyFields, allClean, List.append_assoc, List.append_nil]

end BuildTargetRunResult

/-! ### Resources -/

namespace Resources

/-- The members. bsp-types/src/bt_resources.rs:58-63. -/
def tyFields : Fields :=
  .cons "target" .required none BuildTargetIdentifier.ty <|
  .cons "resources" .required none (.list .str) <|
  .nil

/-- The schema. bsp-types/src/bt_resources.rs:58-63. -/
def ty : Ty := .struct tyFields

theorem follows [Ext] : Follows ty dec enc := by
  have g0 : ∀ s : Src, Got s 0 "target" .required (BuildTargetIdentifier.ty) (s.req 0 "target" BuildTargetIdentifier.dec) (BuildTargetIdentifier.enc) :=
    fun s => got_req BuildTargetIdentifier.follows s
  have g1 : ∀ s : Src, Got s 1 "resources" .required (.list .str) (s.req 1 "resources" (decList decStr)) (encList Json.str) :=
    fun s => got_req (follows_list follows_str) s
  refine follows_struct (fields := fields) rfl (fun j h => by simp only [dec, h]; rfl) ?_ ?_
  · intro j s hs
    constructor
    · intro h
      obtain ⟨x, hx⟩ := Option.isSome_iff_exists.1 h
      obtain ⟨s', hs', h0, h1⟩ := dec_inv hx
      cases hs'.symm.trans hs
      exact ⟨(g0 s).ok h0, (g1 s).ok h1, trivial⟩
    · rintro ⟨o0, o1, -⟩
      obtain ⟨a0, h0⟩ := (g0 s).some o0
      obtain ⟨a1, h1⟩ := (g1 s).some o1
      have : dec j = some _ := (bind_of_some hs).trans ((bind_of_some h0).trans (bind_of_some h1))
      rw [this]; rfl
  · intro j s x hs hx
    obtain ⟨s', hs', h0, h1⟩ := dec_inv hx
    cases hs'.symm.trans hs
    have e0 : fld "target" (BuildTargetIdentifier.enc x.target) = put "target" none (clean (BuildTargetIdentifier.ty) ((s.get 0 "target").getD Absent.required.tree)) :=
      put_fld ((g0 s).2 _ h0)
    have e1 : fld "resources" (encList Json.str x.resources) = put "resources" none (clean (.list .str) ((s.get 1 "resources").getD Absent.required.tree)) :=
      put_fld ((g1 s).2 _ h1)
    simp only [enc, e0, e1, tyFields, allClean, List.append_assoc, List.append_nil]

end Resources

/-! ### BuildTargetResourcesResult -/

namespace BuildTargetResourcesResult

/-- The members. bsp-types/src/bt_resources.rs:37-40. -/
def tyFields : Fields :=
  .cons "items" .required none (.list Resources.ty) <|
  .nil

/-- The schema. bsp-types/src/bt_resources.rs:37-40. -/
def ty : Ty := .struct tyFields

theorem follows [Ext] : Follows ty dec enc := by
  have g0 : ∀ s : Src, Got s 0 "items" .required (.list Resources.ty) (s.req 0 "items" (decList Resources.dec)) (encList Resources.enc) :=
    fun s => got_req (follows_list Resources.follows) s
  refine follows_struct (fields := fields) rfl (fun j h => by simp only [dec, h]; rfl) ?_ ?_
  · intro j s hs
    constructor
    · intro h
      obtain ⟨x, hx⟩ := Option.isSome_iff_exists.1 h
      obtain ⟨s', hs', h0⟩ := dec_inv hx
      cases hs'.symm.trans hs
      exact ⟨(g0 s).ok h0, trivial⟩
    · rintro ⟨o0, -⟩
      obtain ⟨a0, h0⟩ := (g0 s).some o0
      have : dec j = some _ := (bind_of_some hs).trans (bind_of_some h0)
      rw [this]; rfl
  · intro j s x hs hx
    obtain ⟨s', hs', h0⟩ := dec_inv hx
    cases hs'.symm.trans hs
    have e0 : fld "items" (encList Resources.enc x.items) = put "items" none (clean (.list Resources.ty) ((s.get 0 "items").getD Absent.required.tree)) :=
      put_fld ((g0 s).2 _ h0)
    simp only [enc, e0, tyFields, allClean, List.append_assoc, List.append_nil]

end BuildTargetResourcesResult

/-! ### DependencyModule -/

namespace DependencyModule

/-- The members. bsp-types/src/bt_dependency_modules.rs:83-98. -/
def tyFields : Fields :=
  .cons "name" .required none .str <|
  .cons "version" .required none .str <|
  .cons "dataKind" .optional none (.opt .str) <|
  .cons "data" .optional none (.opt .any) <|
  .nil

/-- The schema. bsp-types/src/bt_dependency_modules.rs:83-98. -/
def ty : Ty := .struct tyFields

theorem follows [Ext] : Follows ty dec enc := by
  have g0 : ∀ s : Src, Got s 0 "name" .required (.str) (s.req 0 "name" decStr) (Json.str) :=
    fun s => got_req follows_str s
  have g1 : ∀ s : Src, Got s 1 "version" .required (.str) (s.req 1 "version" decStr) (Json.str) :=
    fun s => got_req follows_str s
  have g2 : ∀ s : Src, Got s 2 "dataKind" .optional (.opt .str) (s.opt 2 "dataKind" decStr) (encOpt Json.str) :=
    fun s => got_opt follows_str s
  have g3 : ∀ s : Src, Got s 3 "data" .optional (.opt .any) (s.opt 3 "data" decValue) (encOpt Value.json) :=
    fun s => got_opt follows_value s
  refine follows_struct (fields := fields) rfl (fun j h => by simp only [dec, h]; rfl) ?_ ?_
  · intro j s hs
    constructor
    · intro h
      obtain ⟨x, hx⟩ := Option.isSome_iff_exists.1 h
      obtain ⟨s', hs', h0, h1, h2, h3⟩ := dec_inv hx
      cases hs'.symm.trans hs
      exact ⟨(g0 s).ok h0, (g1 s).ok h1, (g2 s).ok h2, (g3 s).ok h3, trivial⟩
    · rintro ⟨o0, o1, o2, o3, -⟩
      obtain ⟨a0, h0⟩ := (g0 s).some o0
      obtain ⟨a1, h1⟩ := (g1 s).some o1
      obtain ⟨a2, h2⟩ := (g2 s).some o2
      obtain ⟨a3, h3⟩ := (g3 s).some o3
      have : dec j = some _ := (bind_of_some hs).trans ((bind_of_some h0).trans ((bind_of_some h1).trans ((bind_of_some h2).trans (bind_of_some h3))))
      rw [this]; rfl
  · intro j s x hs hx
    obtain ⟨s', hs', h0, h1, h2, h3⟩ := dec_inv hx
    cases hs'.symm.trans hs
    have e0 : fld "name" (Json.str x.name) = put "name" none (clean (.str) ((s.get 0 "name").getD Absent.required.tree)) :=
      put_fld ((g0 s).2 _ h0)
    have e1 : fld "version" (Json.str x.version) = put "version" none (clean (.str) ((s.get 1 "version").getD Absent.required.tree)) :=
      put_fld ((g1 s).2 _ h1)
    have e2 : fld "dataKind" (encOpt Json.str x.dataKind) = put "dataKind" none (clean (.opt .str) ((s.get 2 "dataKind").getD Absent.optional.tree)) :=
      put_fld ((g2 s).2 _ h2)
    have e3 : fld "data" (encOpt Value.json x.data) = put "data" none (clean (.opt .any) ((s.get 3 "data").getD Absent.optional.tree)) :=
      put_fld ((g3 s).2 _ h3)
    simp only [enc, e0, e1, e2, e3, tyFields, allClean, List.append_assoc, List.append_nil]

end DependencyModule

/-! ### DependencyModulesItem -/

namespace DependencyModulesItem

/-- The members. bsp-types/src/bt_dependency_modules.rs:56-60. -/
def tyFields : Fields :=
  .cons "target" .required none BuildTargetIdentifier.ty <|
  .cons "modules" .required none (.list DependencyModule.ty) <|
  .nil

/-- The schema. bsp-types/src/bt_dependency_modules.rs:56-60. -/
def ty : Ty := .struct tyFields

theorem follows [Ext] : Follows ty dec enc := by
  have g0 : ∀ s : Src, Got s 0 "target" .required (BuildTargetIdentifier.ty) (s.req 0 "target" BuildTargetIdentifier.dec) (BuildTargetIdentifier.enc) :=
    fun s => got_req BuildTargetIdentifier.follows s
  have g1 : ∀ s : Src, Got s 1 "modules" .required (.list DependencyModule.ty) (s.req 1 "modules" (decList DependencyModule.dec)) (encList DependencyModule.enc) :=
    fun s => got_req (follows_list DependencyModule.follows) s
  refine follows_struct (fields := fields) rfl (fun j h => by simp only [dec, h]; rfl) ?_ ?_
  · intro j s hs
    constructor
    · intro h
      obtain ⟨x, hx⟩ := Option.isSome_iff_exists.1 h
      obtain ⟨s', hs', h0, h1⟩ := dec_inv hx
      cases hs'.symm.trans hs
      exact ⟨(g0 s).ok h0, (g1 s).ok h1, trivial⟩
    · rintro ⟨o0, o1, -⟩
      obtain ⟨a0, h0⟩ := (g0 s).some o0
      obtain ⟨a1, h1⟩ := (g1 s).some o1
      have : dec j = some _ := (bind_of_some hs).trans ((bind_of_some h0).trans (bind_of_some h1))
      rw [this]; rfl
  · intro j s x hs hx
    obtain ⟨s', hs', h0, h1⟩ := dec_inv hx
    cases hs'.symm.trans hs
    have e0 : fld "target" (BuildTargetIdentifier.enc x.target) = put "target" none (clean (BuildTargetIdentifier.ty) ((s.get 0 "target").getD Absent.required.tree)) :=
      put_fld ((g0 s).2 _ h0)
    have e1 : fld "modules" (encList DependencyModule.enc x.modules) = put "modules" none (clean (.list DependencyModule.ty) ((s.get 1 "modules").getD Absent.required.tree)) :=
      put_fld ((g1 s).2 _ h1)
    simp only [enc, e0, e1, tyFields, allClean, List.append_assoc, List.append_nil]

end DependencyModulesItem

/-! ### BuildTargetDependencyModulesResult -/

namespace BuildTargetDependencyModulesResult

/-- The members. bsp-types/src/bt_dependency_modules.rs:35-38. -/
def tyFields : Fields :=
  .cons "items" .required none (.list DependencyModulesItem.ty) <|
  .nil

/-- The schema. bsp-types/src/bt_dependency_modules.rs:35-38. -/
def ty : Ty := .struct tyFields

theorem follows [Ext] : Follows ty dec enc := by
  have g0 : ∀ s : Src, Got s 0 "items" .required (.list DependencyModulesItem.ty) (s.req 0 "items" (decList DependencyModulesItem.dec)) (encList DependencyModulesItem.enc) :=
    fun s => got_req (follows_list DependencyModulesItem.follows) s
  refine follows_struct (fields := fields) rfl (fun j h => by simp only [dec, h]; rfl) ?_ ?_
  · intro j s hs
    constructor
    · intro h
      obtain ⟨x, hx⟩ := Option.isSome_iff_exists.1 h
      obtain ⟨s', hs', h0⟩ := dec_inv hx
      cases hs'.symm.trans hs
      exact ⟨(g0 s).ok h0, trivial⟩
    · rintro ⟨o0, -⟩
      obtain ⟨a0, h0⟩ := (g0 s).some o0
      have : dec j = some _ := (bind_of_some hs).trans (bind_of_some h0)
      rw [this]; rfl
  · intro j s x hs hx
    obtain ⟨s', hs', h0⟩ := dec_inv hx
    cases hs'.symm.trans hs
    have e0 : fld "items" (encList DependencyModulesItem.enc x.items) = put "items" none (clean (.list DependencyModulesItem.ty) ((s.get 0 "items").getD Absent.required.tree)) :=
      put_fld ((g0 s).2 _ h0)
    simp only [enc, e0, tyFields, allClean, List.append_assoc, List.append_nil]

end BuildTargetDependencyModulesResult

/-! ### BuildTargetCleanCacheResult -/

namespace BuildTargetCleanCacheResult

/-- The members. bsp-types/src/bt_clean_cache.rs:40-47. -/
def tyFields : Fields :=
  .cons "message" .optional (some (.null)) (.opt .str) <|
  .cons "cleaned" .required none .bool <|
  .nil

/-- The schema. bsp-types/src/bt_clean_cache.rs:40-47. -/
def ty : Ty := .struct tyFields

theorem follows [Ext] : Follows ty dec enc := by
  have g0 : ∀ s : Src, Got s 0 "message" .optional (.opt .str) (s.opt 0 "message" decStr) (encOpt Json.str) :=
    fun s => got_opt follows_str s
  have g1 : ∀ s : Src, Got s 1 "cleaned" .required (.bool) (s.req 1 "cleaned" decBool) (Json.bool) :=
    fun s => got_req follows_bool s
  refine follows_struct (fields := fields) rfl (fun j h => by simp only [dec, h]; rfl) ?_ ?_
  · intro j s hs
    constructor
    · intro h
      obtain ⟨x, hx⟩ := Option.isSome_iff_exists.1 h
      obtain ⟨s', hs', h0, h1⟩ := dec_inv hx
      cases hs'.symm.trans hs
      exact ⟨(g0 s).ok h0, (g1 s).ok h1, trivial⟩
    · rintro ⟨o0, o1, -⟩
      obtain ⟨a0, h0⟩ := (g0 s).some o0
      obtain ⟨a1, h1⟩ := (g1 s).some o1
      have : dec j = some _ := (bind_of_some hs).trans ((bind_of_some h0).trans (bind_of_some h1))
      rw [this]; rfl
  · intro j s x hs hx
    obtain ⟨s', hs', h0, h1⟩ := dec_inv hx
    cases hs'.symm.trans hs
    have e0 : skipNone "message" Json.str x.message = put "message" (some (.null)) (clean (.opt .str) ((s.get 0 "message").getD Absent.optional.tree)) :=
      put_skipNone ((g0 s).2 _ h0) (by simp)
    have e1 : fld "cleaned" (Json.bool x.cleaned) = put "cleaned" none (clean (.bool) ((s.get 1 "cleaned").getD Absent.required.tree)) :=
      put_fld ((g1 s).2 _ h1)
    simp only [enc, e0, e1, tyFields, allClean, List.append_assoc, List.append_nil]

end BuildTargetCleanCacheResult

/-! ### BuildTargetInverseSourcesResult -/

namespace BuildTargetInverseSourcesResult

/-- The members. bsp-types/src/bt_inverse_sources.rs:32-35. -/
def tyFields : Fields :=
  .cons "targets" .required none (.list BuildTargetIdentifier.ty) <|
  .nil

/-- The schema. bsp-types/src/bt_inverse_sources.rs:32-35. -/
def ty : Ty := .struct tyFields

theorem follows [Ext] : Follows ty dec enc := by
  have g0 : ∀ s : Src, Got s 0 "targets" .required (.list BuildTargetIdentifier.ty) (s.req 0 "targets" (decList BuildTargetIdentifier.dec)) (encList BuildTargetIdentifier.enc) :=
    fun s => got_req (follows_list BuildTargetIdentifier.follows) s
  refine follows_struct (fields := fields) rfl (fun j h => by simp only [dec, h]; rfl) ?_ ?_
  · intro j s hs
    constructor
    · intro h
      obtain ⟨x, hx⟩ := Option.isSome_iff_exists.1 h
      obtain ⟨s', hs', h0⟩ := dec_inv hx
      cases hs'.symm.trans hs
      exact ⟨(g0 s).ok h0, trivial⟩
    · rintro ⟨o0, -⟩
      obtain ⟨a0, h0⟩ := (g0 s).some o0
      have : dec j = some _ := (bind_of_some hs).trans (bind_of_some h0)
      rw [this]; rfl
  · intro j s x hs hx
    obtain ⟨s', hs', h0⟩ := dec_inv hx
    cases hs'.symm.trans hs
    have e0 : fld "targets" (encList BuildTargetIdentifier.enc x.targets) = put "targets" none (clean (.list BuildTargetIdentifier.ty) ((s.get 0 "targets").getD Absent.required.tree)) :=
      put_fld ((g0 s).2 _ h0)
    simp only [enc, e0, tyFields, allClean, List.append_assoc, List.append_nil]

end BuildTargetInverseSourcesResult

/-! ### DependencySourcesItem -/

namespace DependencySourcesItem

/-- The members. bsp-types/src/bt_dependency_sources.rs:40-47. -/
def tyFields : Fields :=
  .cons "target" .required none BuildTargetIdentifier.ty <|
  .cons "sources" .required none (.list .str) <|
  .nil

/-- The schema. bsp-types/src/bt_dependency_sources.rs:40-47. -/
def ty : Ty := .struct tyFields

theorem follows [Ext] : Follows ty dec enc := by
  have g0 : ∀ s : Src, Got s 0 "target" .required (BuildTargetIdentifier.ty) (s.req 0 "target" BuildTargetIdentifier.dec) (BuildTargetIdentifier.enc) :=
    fun s => got_req BuildTargetIdentifier.follows s
  have g1 : ∀ s : Src, Got s 1 "sources" .required (.list .str) (s.req 1 "sources" (decList decStr)) (encList Json.str) :=
    fun s => got_req (follows_list follows_str) s
  refine follows_struct (fields := fields) rfl (fun j h => by simp only [dec, h]; rfl) ?_ ?_
  · intro j s hs
    constructor
    · intro h
      obtain ⟨x, hx⟩ := Option.isSome_iff_exists.1 h
      obtain ⟨s', hs', h0, h1⟩ := dec_inv hx
      cases hs'.symm.trans hs
      exact ⟨(g0 s).ok h0, (g1 s).ok h1, trivial⟩
    · rintro ⟨o0, o1, -⟩
      obtain ⟨a0, h0⟩ := (g0 s).some o0
      obtain ⟨a1, h1⟩ := (g1 s).some o1
      have : dec j = some _ := (bind_of_some hs).trans ((bind_of_some h0).trans (bind_of_some h1))
      rw [this]; rfl
  · intro j s x hs hx
    obtain ⟨s', hs', h0, h1⟩ := dec_inv hx
    cases hs'.symm.trans hs
    have e0 : fld "target" (BuildTargetIdentifier.enc x.target) = put "target" none (clean (BuildTargetIdentifier.ty) ((s.get 0 "target").getD Absent.required.tree)) :=
      put_fld ((g0 s).2 _ h0)
    have e1 : fld "sources" (encList Json.str x.sources) = put "sources" none (clean (.list .str) ((s.get 1 "sources").getD Absent.required.tree)) :=
      put_fld ((g1 s).2 _ h1)
    simp only [enc, e0, e1, tyFields, allClean, List.append_assoc, List.append_nil]

end DependencySourcesItem

/-! ### BuildTargetDependencySourcesResult -/

namespace BuildTargetDependencySourcesResult

/-- The members. bsp-types/src/bt_dependency_sources.rs:35-38. -/
def tyFields : Fields :=
  .cons "items" .required none (.list DependencySourcesItem.ty) <|
  .nil

/-- The schema. bsp-types/src/bt_dependency_sources.rs:35-38. -/
def ty : Ty := .struct tyFields

theorem follows [Ext] : Follows ty dec enc := by
  have g0 : ∀ s : Src, Got s 0 "items" .required (.list DependencySourcesItem.ty) (s.req 0 "items" (decList DependencySourcesItem.dec)) (encList DependencySourcesItem.enc) :=
    fun s => got_req (follows_list DependencySourcesItem.follows) s
  refine follows_struct (fields := fields) rfl (fun j h => by simp only [dec, h]; rfl) ?_ ?_
  · intro j s hs
    constructor
    · intro h
      obtain ⟨x, hx⟩ := Option.isSome_iff_exists.1 h
      obtain ⟨s', hs', h0⟩ := dec_inv hx
      cases hs'.symm.trans hs
      exact ⟨(g0 s).ok h0, trivial⟩
    · rintro ⟨o0, -⟩
      obtain ⟨a0, h0⟩ := (g0 s).some o0
      have : dec j = some _ := (bind_of_some hs).trans (bind_of_some h0)
      rw [this]; rfl
  · intro j s x hs hx
    obtain ⟨s', hs', h0⟩ := dec_inv hx
    cases hs'.symm.trans hs
    have e0 : fld "items" (encList DependencySourcesItem.enc x.items) = put "items" none (clean (.list DependencySourcesItem.ty) ((s.get 0 "items").getD Absent.required.tree)) :=
      put_fld ((g0 s).2 _ h0)
    simp only [enc, e0, tyFields, allClean, List.append_assoc, List.append_nil]

end BuildTargetDependencySourcesResult

/-- The schema of every payload type of bsp-types/src/lib.rs:1-56. -/
def Payload.ty : Payload → Ty
  | .buildTargetIdentifier => BuildTargetIdentifier.ty
  | .textDocumentIdentifier => TextDocumentIdentifier.ty
  | .clientCapabilities => ClientCapabilities.ty
  | .initializeBuild => InitializeBuild.ty
  | .buildTargetCleanCache => BuildTargetCleanCache.ty
  | .buildTargetDependencyModules => BuildTargetDependencyModules.ty
  | .buildTargetResources => BuildTargetResources.ty
  | .buildTargetSources => BuildTargetSources.ty
  | .buildTargetCompile => BuildTargetCompile.ty
  | .buildTargetRun => BuildTargetRun.ty
  | .buildTargetTest => BuildTargetTest.ty
  | .buildTargetDependencySources => BuildTargetDependencySources.ty
  | .textDocumentInverseSources => TextDocumentInverseSources.ty
  | .debugSessionStart => DebugSessionStart.ty
  | .taskId => TaskId.ty
  | .showMessage => ShowMessage.ty
  | .logMessage => LogMessage.ty
  | .position => Position.ty
  | .range => Range.ty
  | .codeDescription => CodeDescription.ty
  | .location => Location.ty
  | .diagnosticRelatedInformation => DiagnosticRelatedInformation.ty
  | .diagnostic => Diagnostic.ty
  | .publishDiagnostics => PublishDiagnostics.ty
  | .taskStart => TaskStart.ty
  | .taskFinish => TaskFinish.ty
  | .taskProgress => TaskProgress.ty
  | .buildTargetEvent => BuildTargetEvent.ty
  | .buildTargetDidChange => BuildTargetDidChange.ty
  | .compileProvider => CompileProvider.ty
  | .testProvider => TestProvider.ty
  | .runProvider => RunProvider.ty
  | .debugProvider => DebugProvider.ty
  | .serverCapabilities => ServerCapabilities.ty
  | .initializeBuildResult => InitializeBuildResult.ty
  | .buildTargetCapabilities => BuildTargetCapabilities.ty
  | .buildTarget => BuildTarget.ty
  | .workspaceBuildTargetsResult => WorkspaceBuildTargetsResult.ty
  | .debugSessionStartResult => DebugSessionStartResult.ty
  | .sources => Sources.ty
  | .sourcesCollection => SourcesCollection.ty
  | .buildTargetSourcesResult => BuildTargetSourcesResult.ty
  | .buildTargetCompileResult => BuildTargetCompileResult.ty
  | .buildTargetTestResult => BuildTargetTestResult.ty
  | .buildTargetRunResult => BuildTargetRunResult.ty
  | .resources => Resources.ty
  | .buildTargetResourcesResult => BuildTargetResourcesResult.ty
  | .dependencyModule => DependencyModule.ty
  | .dependencyModulesItem => DependencyModulesItem.ty
  | .buildTargetDependencyModulesResult => BuildTargetDependencyModulesResult.ty
  | .buildTargetCleanCacheResult => BuildTargetCleanCacheResult.ty
  | .buildTargetInverseSourcesResult => BuildTargetInverseSourcesResult.ty
  | .dependencySourcesItem => DependencySourcesItem.ty
  | .buildTargetDependencySourcesResult => BuildTargetDependencySourcesResult.ty

theorem Payload.follows [Ext] (p : Payload) : Follows p.ty p.dec p.enc := by
  cases p
  · exact BuildTargetIdentifier.follows
  · exact TextDocumentIdentifier.follows
  · exact ClientCapabilities.follows
  · exact InitializeBuild.follows
  · exact BuildTargetCleanCache.follows
  · exact BuildTargetDependencyModules.follows
  · exact BuildTargetResources.follows
  · exact BuildTargetSources.follows
  · exact BuildTargetCompile.follows
  · exact BuildTargetRun.follows
  · exact BuildTargetTest.follows
  · exact BuildTargetDependencySources.follows
  · exact TextDocumentInverseSources.follows
  · exact DebugSessionStart.follows
  · exact TaskId.follows
  · exact ShowMessage.follows
  · exact LogMessage.follows
  · exact Position.follows
  · exact Range.follows
  · exact CodeDescription.follows
  · exact Location.follows
  · exact DiagnosticRelatedInformation.follows
  · exact Diagnostic.follows
  · exact PublishDiagnostics.follows
  · exact TaskStart.follows
  · exact TaskFinish.follows
  · exact TaskProgress.follows
  · exact BuildTargetEvent.follows
  · exact BuildTargetDidChange.follows
  · exact CompileProvider.follows
  · exact TestProvider.follows
  · exact RunProvider.follows
  · exact DebugProvider.follows
  · exact ServerCapabilities.follows
  · exact InitializeBuildResult.follows
  · exact BuildTargetCapabilities.follows
  · exact BuildTarget.follows
  · exact WorkspaceBuildTargetsResult.follows
  · exact DebugSessionStartResult.follows
  · exact Sources.follows
  · exact SourcesCollection.follows
  · exact BuildTargetSourcesResult.follows
  · exact BuildTargetCompileResult.follows
  · exact BuildTargetTestResult.follows
  · exact BuildTargetRunResult.follows
  · exact Resources.follows
  · exact BuildTargetResourcesResult.follows
  · exact DependencyModule.follows
  · exact DependencyModulesItem.follows
  · exact BuildTargetDependencyModulesResult.follows
  · exact BuildTargetCleanCacheResult.follows
  · exact BuildTargetInverseSourcesResult.follows
  · exact DependencySourcesItem.follows
  · exact BuildTargetDependencySourcesResult.follows

end Bsp
