/-
The data types of bsp-types/src, with their derived serialisers and deserialisers.
Generated by tools/gen_types.py from a transcription of the struct definitions; the enumerations
with hand-written or `serde_repr` code are in Verif/Enums.lean.

Naming: `T.enc` = `Serialize` (members in declaration order), `T.dec` = `Deserialize`,
`T.norm` = what is left after the wire (`Some(null)` data becomes `None`, a custom task data kind
with a reserved name becomes the reserved kind); types without `norm` come back unchanged.
`T.fields` = wire names in declaration order.
-/
import Verif.Enums

set_option linter.unusedSimpArgs false

namespace Bsp
open Json

/-! ### BuildTargetIdentifier -/

/-- bsp-types/src/bt_identifier.rs:4-7. -/
structure BuildTargetIdentifier [Ext] where
  uri : Ext.Url

namespace BuildTargetIdentifier

/-- Wire names of the fields, in declaration order. bsp-types/src/bt_identifier.rs:4-7. -/
def fields : List String := ["uri"]

/-- Derived `Serialize`. bsp-types/src/bt_identifier.rs:4-7. -/
def enc [Ext] (x : BuildTargetIdentifier) : Json :=
  .obj (fld "uri" (encUrl x.uri))

/-- Derived `Deserialize`. bsp-types/src/bt_identifier.rs:4-7. -/
def dec [Ext] (j : Json) : Option BuildTargetIdentifier := do
  let s ← structSrc fields j
  let uri ← s.req 0 "uri" decUrl
  return { uri }

theorem dec_enc [LawfulExt] (x : BuildTargetIdentifier) : dec (canon (enc x)) = some x := by
  simp only [dec, enc, structSrc_canon_obj]
  generalize hms : (fld "uri" (encUrl x.uri) : Members) = ms
  have h0 : (Src.map (canonMembers ms [])).req 0 "uri" decUrl = some (x.uri) :=
    req_canon (j := encUrl x.uri) 0 (by subst hms; simp [lookupLast_append, lookupLast_fld, lookupLast_skipNone, lookupLast_skipIf]) (dec_url x.uri)
  exact (bind_of_some rfl).trans (bind_of_some h0)

theorem dec_congr [Ext] {a b : Members} (h : SameOn fields a b) : dec (.obj a) = dec (.obj b) := by
  have h0 : List.lookup "uri" a = List.lookup "uri" b := h.lookup (by simp [fields])
  simp only [dec, structSrc, h.dup]
  split
  · rfl
  · simp only [Option.bind_eq_bind, Option.bind_some, Src.req, Src.opt, Src.dflt, Src.get, h0]

theorem dec_missing_uri [Ext] {ms : Members} (h : List.lookup "uri" ms = none) :
    dec (.obj ms) = none := by
  simp only [dec, structSrc]
  split
  · rfl
  · simp [Src.req, Src.get, h]

end BuildTargetIdentifier

/-! ### TextDocumentIdentifier -/

/-- lsp_types::TextDocumentIdentifier (bt_inverse_sources.rs:1, bt_dependency_sources.rs:16). -/
structure TextDocumentIdentifier [Ext] where
  uri : Ext.Url

namespace TextDocumentIdentifier

/-- Wire names of the fields, in declaration order. lsp_types::TextDocumentIdentifier (bt_inverse_sources.rs:1, bt_dependency_sources.rs:16). -/
def fields : List String := ["uri"]

/-- Derived `Serialize`. lsp_types::TextDocumentIdentifier (bt_inverse_sources.rs:1, bt_dependency_sources.rs:16). -/
def enc [Ext] (x : TextDocumentIdentifier) : Json :=
  .obj (fld "uri" (encUrl x.uri))

/-- Derived `Deserialize`. lsp_types::TextDocumentIdentifier (bt_inverse_sources.rs:1, bt_dependency_sources.rs:16). -/
def dec [Ext] (j : Json) : Option TextDocumentIdentifier := do
  let s ← structSrc fields j
  let uri ← s.req 0 "uri" decUrl
  return { uri }

theorem dec_enc [LawfulExt] (x : TextDocumentIdentifier) : dec (canon (enc x)) = some x := by
  simp only [dec, enc, structSrc_canon_obj]
  generalize hms : (fld "uri" (encUrl x.uri) : Members) = ms
  have h0 : (Src.map (canonMembers ms [])).req 0 "uri" decUrl = some (x.uri) :=
    req_canon (j := encUrl x.uri) 0 (by subst hms; simp [lookupLast_append, lookupLast_fld, lookupLast_skipNone, lookupLast_skipIf]) (dec_url x.uri)
  exact (bind_of_some rfl).trans (bind_of_some h0)

theorem dec_congr [Ext] {a b : Members} (h : SameOn fields a b) : dec (.obj a) = dec (.obj b) := by
  have h0 : List.lookup "uri" a = List.lookup "uri" b := h.lookup (by simp [fields])
  simp only [dec, structSrc, h.dup]
  split
  · rfl
  · simp only [Option.bind_eq_bind, Option.bind_some, Src.req, Src.opt, Src.dflt, Src.get, h0]

theorem dec_missing_uri [Ext] {ms : Members} (h : List.lookup "uri" ms = none) :
    dec (.obj ms) = none := by
  simp only [dec, structSrc]
  split
  · rfl
  · simp [Src.req, Src.get, h]

end TextDocumentIdentifier

/-! ### ClientCapabilities -/

/-- bsp-types/src/client_capabilities.rs:3-11. -/
structure ClientCapabilities where
  languageIds : List String

namespace ClientCapabilities

/-- Wire names of the fields, in declaration order. bsp-types/src/client_capabilities.rs:3-11. -/
def fields : List String := ["languageIds"]

/-- Derived `Serialize`. bsp-types/src/client_capabilities.rs:3-11. -/
def enc (x : ClientCapabilities) : Json :=
  .obj (fld "languageIds" (encList Json.str x.languageIds))

/-- Derived `Default`. bsp-types/src/client_capabilities.rs:3-11. -/
def default : ClientCapabilities := ⟨[]⟩

/-- Derived `Deserialize`. bsp-types/src/client_capabilities.rs:3-11. -/
def dec (j : Json) : Option ClientCapabilities := do
  let s ← structSrc fields j
  let languageIds ← s.req 0 "languageIds" (decList decStr)
  return { languageIds }

theorem dec_enc (x : ClientCapabilities) : dec (canon (enc x)) = some x := by
  simp only [dec, enc, structSrc_canon_obj]
  generalize hms : (fld "languageIds" (encList Json.str x.languageIds) : Members) = ms
  have h0 : (Src.map (canonMembers ms [])).req 0 "languageIds" (decList decStr) = some (x.languageIds) :=
    req_canon (j := encList Json.str x.languageIds) 0 (by subst hms; simp [lookupLast_append, lookupLast_fld, lookupLast_skipNone, lookupLast_skipIf]) (dec_list_id dec_str x.languageIds)
  exact (bind_of_some rfl).trans (bind_of_some h0)

theorem dec_congr {a b : Members} (h : SameOn fields a b) : dec (.obj a) = dec (.obj b) := by
  have h0 : List.lookup "languageIds" a = List.lookup "languageIds" b := h.lookup (by simp [fields])
  simp only [dec, structSrc, h.dup]
  split
  · rfl
  · simp only [Option.bind_eq_bind, Option.bind_some, Src.req, Src.opt, Src.dflt, Src.get, h0]

theorem dec_missing_languageIds {ms : Members} (h : List.lookup "languageIds" ms = none) :
    dec (.obj ms) = none := by
  simp only [dec, structSrc]
  split
  · rfl
  · simp [Src.req, Src.get, h]

theorem dec_default : dec (.obj [("languageIds", .arr [])]) = some default := by
  simp [dec, structSrc, dupKnown, fields, named, Src.req, Src.get, decList, default, List.lookup]

end ClientCapabilities

/-! ### InitializeBuild -/

/-- bsp-types/src/initialize_params.rs:8-39. -/
structure InitializeBuild [Ext] where
  displayName : String
  version : String
  bspVersion : String
  rootUri : Ext.Url
  capabilities : ClientCapabilities
  data : Option Value

namespace InitializeBuild

/-- Wire names of the fields, in declaration order. bsp-types/src/initialize_params.rs:8-39. -/
def fields : List String := ["displayName", "version", "bspVersion", "rootUri", "capabilities", "data"]

/-- Derived `Serialize`. bsp-types/src/initialize_params.rs:8-39. -/
def enc [Ext] (x : InitializeBuild) : Json :=
  .obj (fld "displayName" (Json.str x.displayName)
    ++ skipIf (x.version == "") "version" (Json.str x.version)
    ++ skipIf (x.bspVersion == "") "bspVersion" (Json.str x.bspVersion)
    ++ fld "rootUri" (encUrl x.rootUri)
    ++ fld "capabilities" (ClientCapabilities.enc x.capabilities)
    ++ skipNone "data" Value.json x.data)

/-- Derived `Deserialize`. bsp-types/src/initialize_params.rs:8-39. -/
def dec [Ext] (j : Json) : Option InitializeBuild := do
  let s ← structSrc fields j
  let displayName ← s.req 0 "displayName" decStr
  let version ← s.dflt 1 "version" "" decStr
  let bspVersion ← s.dflt 2 "bspVersion" "" decStr
  let rootUri ← s.req 3 "rootUri" decUrl
  let capabilities ← s.dflt 4 "capabilities" ClientCapabilities.default ClientCapabilities.dec
  let data ← s.dflt 5 "data" none (decOpt decValue)
  return { displayName, version, bspVersion, rootUri, capabilities, data }

/-- What is left of a value after the wire. bsp-types/src/initialize_params.rs:8-39. -/
def norm [Ext] (x : InitializeBuild) : InitializeBuild :=
  { x with data := normData x.data }

theorem dec_enc [LawfulExt] (x : InitializeBuild) : dec (canon (enc x)) = some x.norm := by
  simp only [dec, enc, structSrc_canon_obj]
  generalize hms : (fld "displayName" (Json.str x.displayName) ++ skipIf (x.version == "") "version" (Json.str x.version) ++ skipIf (x.bspVersion == "") "bspVersion" (Json.str x.bspVersion) ++ fld "rootUri" (encUrl x.rootUri) ++ fld "capabilities" (ClientCapabilities.enc x.capabilities) ++ skipNone "data" Value.json x.data : Members) = ms
  have h0 : (Src.map (canonMembers ms [])).req 0 "displayName" decStr = some (x.displayName) :=
    req_canon (j := Json.str x.displayName) 0 (by subst hms; simp [lookupLast_append, lookupLast_fld, lookupLast_skipNone, lookupLast_skipIf]) (dec_str x.displayName)
  have h1 : (Src.map (canonMembers ms [])).dflt 1 "version" "" decStr = some (x.version) := by
    refine dflt_canon 1 (o := if (x.version == "") then none else some (Json.str x.version)) (by subst hms; simp [lookupLast_append, lookupLast_fld, lookupLast_skipNone, lookupLast_skipIf]) ?_ ?_
    · intro h; simp at h; simp [h]
    · intro j hj; split at hj
      · cases hj
      · cases hj; exact dec_str x.version
  have h2 : (Src.map (canonMembers ms [])).dflt 2 "bspVersion" "" decStr = some (x.bspVersion) := by
    refine dflt_canon 2 (o := if (x.bspVersion == "") then none else some (Json.str x.bspVersion)) (by subst hms; simp [lookupLast_append, lookupLast_fld, lookupLast_skipNone, lookupLast_skipIf]) ?_ ?_
    · intro h; simp at h; simp [h]
    · intro j hj; split at hj
      · cases hj
      · cases hj; exact dec_str x.bspVersion
  have h3 : (Src.map (canonMembers ms [])).req 3 "rootUri" decUrl = some (x.rootUri) :=
    req_canon (j := encUrl x.rootUri) 3 (by subst hms; simp [lookupLast_append, lookupLast_fld, lookupLast_skipNone, lookupLast_skipIf]) (dec_url x.rootUri)
  have h4 : (Src.map (canonMembers ms [])).dflt 4 "capabilities" ClientCapabilities.default ClientCapabilities.dec = some (x.capabilities) := by
    refine dflt_canon 4 (o := some (ClientCapabilities.enc x.capabilities)) (by subst hms; simp [lookupLast_append, lookupLast_fld, lookupLast_skipNone, lookupLast_skipIf]) (by simp) ?_
    intro j hj; cases hj; exact ClientCapabilities.dec_enc x.capabilities
  have h5 : (Src.map (canonMembers ms [])).dflt 5 "data" none (decOpt decValue) = some (normData x.data) := by
    refine dflt_canon 5 (o := x.data.map Value.json) (by subst hms; simp [lookupLast_append, lookupLast_fld, lookupLast_skipNone, lookupLast_skipIf]) ?_ ?_
    · intro h; cases hx : x.data with
      | none => rfl
      | some v => simp [hx] at h
    · intro j hj; cases hx : x.data with
      | none => simp [hx] at hj
      | some v => rw [hx] at hj; cases hj; exact decOpt_value v
  exact (bind_of_some rfl).trans ((bind_of_some h0).trans ((bind_of_some h1).trans ((bind_of_some h2).trans ((bind_of_some h3).trans ((bind_of_some h4).trans (bind_of_some h5))))))

theorem dec_congr [Ext] {a b : Members} (h : SameOn fields a b) : dec (.obj a) = dec (.obj b) := by
  have h0 : List.lookup "displayName" a = List.lookup "displayName" b := h.lookup (by simp [fields])
  have h1 : List.lookup "version" a = List.lookup "version" b := h.lookup (by simp [fields])
  have h2 : List.lookup "bspVersion" a = List.lookup "bspVersion" b := h.lookup (by simp [fields])
  have h3 : List.lookup "rootUri" a = List.lookup "rootUri" b := h.lookup (by simp [fields])
  have h4 : List.lookup "capabilities" a = List.lookup "capabilities" b := h.lookup (by simp [fields])
  have h5 : List.lookup "data" a = List.lookup "data" b := h.lookup (by simp [fields])
  simp only [dec, structSrc, h.dup]
  split
  · rfl
  · simp only [Option.bind_eq_bind, Option.bind_some, Src.req, Src.opt, Src.dflt, Src.get, h0, h1, h2, h3, h4, h5]

theorem dec_missing_displayName [Ext] {ms : Members} (h : List.lookup "displayName" ms = none) :
    dec (.obj ms) = none := by
  simp only [dec, structSrc]
  split
  · rfl
  · simp [Src.req, Src.get, h]

theorem dec_absent_version [Ext] {ms : Members} (h : List.lookup "version" ms = none) :
    dec (.obj ms) = dec (.obj (("version", .str "") :: ms)) := by
  simp only [dec, structSrc, dupKnown_cons fields _ _ h]
  split
  · rfl
  · simp [Src.req, Src.opt, Src.dflt, Src.get, lookup_cons', h, decStr]

theorem dec_absent_bspVersion [Ext] {ms : Members} (h : List.lookup "bspVersion" ms = none) :
    dec (.obj ms) = dec (.obj (("bspVersion", .str "") :: ms)) := by
  simp only [dec, structSrc, dupKnown_cons fields _ _ h]
  split
  · rfl
  · simp [Src.req, Src.opt, Src.dflt, Src.get, lookup_cons', h, decStr]

theorem dec_missing_rootUri [Ext] {ms : Members} (h : List.lookup "rootUri" ms = none) :
    dec (.obj ms) = none := by
  simp only [dec, structSrc]
  split
  · rfl
  · simp [Src.req, Src.get, h]

theorem dec_absent_capabilities [Ext] {ms : Members} (h : List.lookup "capabilities" ms = none) :
    dec (.obj ms) = dec (.obj (("capabilities", .obj [("languageIds", .arr [])]) :: ms)) := by
  simp only [dec, structSrc, dupKnown_cons fields _ _ h]
  split
  · rfl
  · simp [Src.req, Src.opt, Src.dflt, Src.get, lookup_cons', h, ClientCapabilities.dec_default]

theorem dec_absent_data [Ext] {ms : Members} (h : List.lookup "data" ms = none) :
    dec (.obj ms) = dec (.obj (("data", .null) :: ms)) := by
  simp only [dec, structSrc, dupKnown_cons fields _ _ h]
  split
  · rfl
  · simp [Src.req, Src.opt, Src.dflt, Src.get, lookup_cons', h, decOpt]

end InitializeBuild

/-! ### BuildTargetCleanCache -/

/-- bsp-types/src/bt_clean_cache.rs:13-17. -/
structure BuildTargetCleanCache [Ext] where
  targets : List BuildTargetIdentifier

namespace BuildTargetCleanCache

/-- Wire names of the fields, in declaration order. bsp-types/src/bt_clean_cache.rs:13-17. -/
def fields : List String := ["targets"]

/-- Derived `Serialize`. bsp-types/src/bt_clean_cache.rs:13-17. -/
def enc [Ext] (x : BuildTargetCleanCache) : Json :=
  .obj (fld "targets" (encList BuildTargetIdentifier.enc x.targets))

/-- Derived `Deserialize`. bsp-types/src/bt_clean_cache.rs:13-17. -/
def dec [Ext] (j : Json) : Option BuildTargetCleanCache := do
  let s ← structSrc fields j
  let targets ← s.req 0 "targets" (decList BuildTargetIdentifier.dec)
  return { targets }

theorem dec_enc [LawfulExt] (x : BuildTargetCleanCache) : dec (canon (enc x)) = some x := by
  simp only [dec, enc, structSrc_canon_obj]
  generalize hms : (fld "targets" (encList BuildTargetIdentifier.enc x.targets) : Members) = ms
  have h0 : (Src.map (canonMembers ms [])).req 0 "targets" (decList BuildTargetIdentifier.dec) = some (x.targets) :=
    req_canon (j := encList BuildTargetIdentifier.enc x.targets) 0 (by subst hms; simp [lookupLast_append, lookupLast_fld, lookupLast_skipNone, lookupLast_skipIf]) (dec_list_id BuildTargetIdentifier.dec_enc x.targets)
  exact (bind_of_some rfl).trans (bind_of_some h0)

theorem dec_congr [Ext] {a b : Members} (h : SameOn fields a b) : dec (.obj a) = dec (.obj b) := by
  have h0 : List.lookup "targets" a = List.lookup "targets" b := h.lookup (by simp [fields])
  simp only [dec, structSrc, h.dup]
  split
  · rfl
  · simp only [Option.bind_eq_bind, Option.bind_some, Src.req, Src.opt, Src.dflt, Src.get, h0]

theorem dec_missing_targets [Ext] {ms : Members} (h : List.lookup "targets" ms = none) :
    dec (.obj ms) = none := by
  simp only [dec, structSrc]
  split
  · rfl
  · simp [Src.req, Src.get, h]

end BuildTargetCleanCache

/-! ### BuildTargetDependencyModules -/

/-- bsp-types/src/bt_dependency_modules.rs:8-12. -/
structure BuildTargetDependencyModules [Ext] where
  targets : List BuildTargetIdentifier

namespace BuildTargetDependencyModules

/-- Wire names of the fields, in declaration order. bsp-types/src/bt_dependency_modules.rs:8-12. -/
def fields : List String := ["targets"]

/-- Derived `Serialize`. bsp-types/src/bt_dependency_modules.rs:8-12. -/
def enc [Ext] (x : BuildTargetDependencyModules) : Json :=
  .obj (fld "targets" (encList BuildTargetIdentifier.enc x.targets))

/-- Derived `Deserialize`. bsp-types/src/bt_dependency_modules.rs:8-12. -/
def dec [Ext] (j : Json) : Option BuildTargetDependencyModules := do
  let s ← structSrc fields j
  let targets ← s.req 0 "targets" (decList BuildTargetIdentifier.dec)
  return { targets }

theorem dec_enc [LawfulExt] (x : BuildTargetDependencyModules) : dec (canon (enc x)) = some x := by
  simp only [dec, enc, structSrc_canon_obj]
  generalize hms : (fld "targets" (encList BuildTargetIdentifier.enc x.targets) : Members) = ms
  have h0 : (Src.map (canonMembers ms [])).req 0 "targets" (decList BuildTargetIdentifier.dec) = some (x.targets) :=
    req_canon (j := encList BuildTargetIdentifier.enc x.targets) 0 (by subst hms; simp [lookupLast_append, lookupLast_fld, lookupLast_skipNone, lookupLast_skipIf]) (dec_list_id BuildTargetIdentifier.dec_enc x.targets)
  exact (bind_of_some rfl).trans (bind_of_some h0)

theorem dec_congr [Ext] {a b : Members} (h : SameOn fields a b) : dec (.obj a) = dec (.obj b) := by
  have h0 : List.lookup "targets" a = List.lookup "targets" b := h.lookup (by simp [fields])
  simp only [dec, structSrc, h.dup]
  split
  · rfl
  · simp only [Option.bind_eq_bind, Option.bind_some, Src.req, Src.opt, Src.dflt, Src.get, h0]

theorem dec_missing_targets [Ext] {ms : Members} (h : List.lookup "targets" ms = none) :
    dec (.obj ms) = none := by
  simp only [dec, structSrc]
  split
  · rfl
  · simp [Src.req, Src.get, h]

end BuildTargetDependencyModules

/-! ### BuildTargetResources -/

/-- bsp-types/src/bt_resources.rs:11-14. -/
structure BuildTargetResources [Ext] where
  targets : List BuildTargetIdentifier

namespace BuildTargetResources

/-- Wire names of the fields, in declaration order. bsp-types/src/bt_resources.rs:11-14. -/
def fields : List String := ["targets"]

/-- Derived `Serialize`. bsp-types/src/bt_resources.rs:11-14. -/
def enc [Ext] (x : BuildTargetResources) : Json :=
  .obj (fld "targets" (encList BuildTargetIdentifier.enc x.targets))

/-- Derived `Deserialize`. bsp-types/src/bt_resources.rs:11-14. -/
def dec [Ext] (j : Json) : Option BuildTargetResources := do
  let s ← structSrc fields j
  let targets ← s.req 0 "targets" (decList BuildTargetIdentifier.dec)
  return { targets }

theorem dec_enc [LawfulExt] (x : BuildTargetResources) : dec (canon (enc x)) = some x := by
  simp only [dec, enc, structSrc_canon_obj]
  generalize hms : (fld "targets" (encList BuildTargetIdentifier.enc x.targets) : Members) = ms
  have h0 : (Src.map (canonMembers ms [])).req 0 "targets" (decList BuildTargetIdentifier.dec) = some (x.targets) :=
    req_canon (j := encList BuildTargetIdentifier.enc x.targets) 0 (by subst hms; simp [lookupLast_append, lookupLast_fld, lookupLast_skipNone, lookupLast_skipIf]) (dec_list_id BuildTargetIdentifier.dec_enc x.targets)
  exact (bind_of_some rfl).trans (bind_of_some h0)

theorem dec_congr [Ext] {a b : Members} (h : SameOn fields a b) : dec (.obj a) = dec (.obj b) := by
  have h0 : List.lookup "targets" a = List.lookup "targets" b := h.lookup (by simp [fields])
  simp only [dec, structSrc, h.dup]
  split
  · rfl
  · simp only [Option.bind_eq_bind, Option.bind_some, Src.req, Src.opt, Src.dflt, Src.get, h0]

theorem dec_missing_targets [Ext] {ms : Members} (h : List.lookup "targets" ms = none) :
    dec (.obj ms) = none := by
  simp only [dec, structSrc]
  split
  · rfl
  · simp [Src.req, Src.get, h]

end BuildTargetResources

/-! ### BuildTargetSources -/

/-- bsp-types/src/bt_sources.rs:5-12. -/
structure BuildTargetSources [Ext] where
  targets : List BuildTargetIdentifier

namespace BuildTargetSources

/-- Wire names of the fields, in declaration order. bsp-types/src/bt_sources.rs:5-12. -/
def fields : List String := ["targets"]

/-- Derived `Serialize`. bsp-types/src/bt_sources.rs:5-12. -/
def enc [Ext] (x : BuildTargetSources) : Json :=
  .obj (fld "targets" (encList BuildTargetIdentifier.enc x.targets))

/-- Derived `Deserialize`. bsp-types/src/bt_sources.rs:5-12. -/
def dec [Ext] (j : Json) : Option BuildTargetSources := do
  let s ← structSrc fields j
  let targets ← s.req 0 "targets" (decList BuildTargetIdentifier.dec)
  return { targets }

theorem dec_enc [LawfulExt] (x : BuildTargetSources) : dec (canon (enc x)) = some x := by
  simp only [dec, enc, structSrc_canon_obj]
  generalize hms : (fld "targets" (encList BuildTargetIdentifier.enc x.targets) : Members) = ms
  have h0 : (Src.map (canonMembers ms [])).req 0 "targets" (decList BuildTargetIdentifier.dec) = some (x.targets) :=
    req_canon (j := encList BuildTargetIdentifier.enc x.targets) 0 (by subst hms; simp [lookupLast_append, lookupLast_fld, lookupLast_skipNone, lookupLast_skipIf]) (dec_list_id BuildTargetIdentifier.dec_enc x.targets)
  exact (bind_of_some rfl).trans (bind_of_some h0)

theorem dec_congr [Ext] {a b : Members} (h : SameOn fields a b) : dec (.obj a) = dec (.obj b) := by
  have h0 : List.lookup "targets" a = List.lookup "targets" b := h.lookup (by simp [fields])
  simp only [dec, structSrc, h.dup]
  split
  · rfl
  · simp only [Option.bind_eq_bind, Option.bind_some, Src.req, Src.opt, Src.dflt, Src.get, h0]

theorem dec_missing_targets [Ext] {ms : Members} (h : List.lookup "targets" ms = none) :
    dec (.obj ms) = none := by
  simp only [dec, structSrc]
  split
  · rfl
  · simp [Src.req, Src.get, h]

end BuildTargetSources

/-! ### BuildTargetCompile -/

/-- bsp-types/src/bt_compile.rs:7-21. -/
structure BuildTargetCompile [Ext] where
  target : BuildTargetIdentifier
  originId : Option String
  arguments : Option String

namespace BuildTargetCompile

/-- Wire names of the fields, in declaration order. bsp-types/src/bt_compile.rs:7-21. -/
def fields : List String := ["target", "originId", "arguments"]

/-- Derived `Serialize`. bsp-types/src/bt_compile.rs:7-21. -/
def enc [Ext] (x : BuildTargetCompile) : Json :=
  .obj (fld "target" (BuildTargetIdentifier.enc x.target)
    ++ skipNone "originId" Json.str x.originId
    ++ skipNone "arguments" Json.str x.arguments)

/-- Derived `Deserialize`. bsp-types/src/bt_compile.rs:7-21. -/
def dec [Ext] (j : Json) : Option BuildTargetCompile := do
  let s ← structSrc fields j
  let target ← s.req 0 "target" BuildTargetIdentifier.dec
  let originId ← s.opt 1 "originId" decStr
  let arguments ← s.opt 2 "arguments" decStr
  return { target, originId, arguments }

theorem dec_enc [LawfulExt] (x : BuildTargetCompile) : dec (canon (enc x)) = some x := by
  simp only [dec, enc, structSrc_canon_obj]
  generalize hms : (fld "target" (BuildTargetIdentifier.enc x.target) ++ skipNone "originId" Json.str x.originId ++ skipNone "arguments" Json.str x.arguments : Members) = ms
  have h0 : (Src.map (canonMembers ms [])).req 0 "target" BuildTargetIdentifier.dec = some (x.target) :=
    req_canon (j := BuildTargetIdentifier.enc x.target) 0 (by subst hms; simp [lookupLast_append, lookupLast_fld, lookupLast_skipNone, lookupLast_skipIf]) (BuildTargetIdentifier.dec_enc x.target)
  have h1 : (Src.map (canonMembers ms [])).opt 1 "originId" decStr = some x.originId := by
    have := opt_canon_skip (k := "originId") (ms := ms) (dec := decStr) (enc := Json.str) (o := x.originId) (n := Option.map _root_.id) 1 (by subst hms; simp [lookupLast_append, lookupLast_fld, lookupLast_skipNone, lookupLast_skipIf]) rfl (decOpt_canon (n := _root_.id) (by simp) dec_str)
    simpa using this
  have h2 : (Src.map (canonMembers ms [])).opt 2 "arguments" decStr = some x.arguments := by
    have := opt_canon_skip (k := "arguments") (ms := ms) (dec := decStr) (enc := Json.str) (o := x.arguments) (n := Option.map _root_.id) 2 (by subst hms; simp [lookupLast_append, lookupLast_fld, lookupLast_skipNone, lookupLast_skipIf]) rfl (decOpt_canon (n := _root_.id) (by simp) dec_str)
    simpa using this
  exact (bind_of_some rfl).trans ((bind_of_some h0).trans ((bind_of_some h1).trans (bind_of_some h2)))

theorem dec_congr [Ext] {a b : Members} (h : SameOn fields a b) : dec (.obj a) = dec (.obj b) := by
  have h0 : List.lookup "target" a = List.lookup "target" b := h.lookup (by simp [fields])
  have h1 : List.lookup "originId" a = List.lookup "originId" b := h.lookup (by simp [fields])
  have h2 : List.lookup "arguments" a = List.lookup "arguments" b := h.lookup (by simp [fields])
  simp only [dec, structSrc, h.dup]
  split
  · rfl
  · simp only [Option.bind_eq_bind, Option.bind_some, Src.req, Src.opt, Src.dflt, Src.get, h0, h1, h2]

theorem dec_missing_target [Ext] {ms : Members} (h : List.lookup "target" ms = none) :
    dec (.obj ms) = none := by
  simp only [dec, structSrc]
  split
  · rfl
  · simp [Src.req, Src.get, h]

theorem dec_absent_originId [Ext] {ms : Members} (h : List.lookup "originId" ms = none) :
    dec (.obj ms) = dec (.obj (("originId", .null) :: ms)) := by
  simp only [dec, structSrc, dupKnown_cons fields _ _ h]
  split
  · rfl
  · simp [Src.req, Src.opt, Src.dflt, Src.get, lookup_cons', h, decOpt]

theorem dec_absent_arguments [Ext] {ms : Members} (h : List.lookup "arguments" ms = none) :
    dec (.obj ms) = dec (.obj (("arguments", .null) :: ms)) := by
  simp only [dec, structSrc, dupKnown_cons fields _ _ h]
  split
  · rfl
  · simp [Src.req, Src.opt, Src.dflt, Src.get, lookup_cons', h, decOpt]

end BuildTargetCompile

/-! ### BuildTargetRun -/

/-- bsp-types/src/bt_run.rs:7-30. -/
structure BuildTargetRun [Ext] where
  target : BuildTargetIdentifier
  originId : Option String
  arguments : Option String
  dataKind : Option String
  data : Option Value

namespace BuildTargetRun

/-- Wire names of the fields, in declaration order. bsp-types/src/bt_run.rs:7-30. -/
def fields : List String := ["target", "originId", "arguments", "dataKind", "data"]

/-- Derived `Serialize`. bsp-types/src/bt_run.rs:7-30. -/
def enc [Ext] (x : BuildTargetRun) : Json :=
  .obj (fld "target" (BuildTargetIdentifier.enc x.target)
    ++ skipNone "originId" Json.str x.originId
    ++ skipNone "arguments" Json.str x.arguments
    ++ skipNone "dataKind" Json.str x.dataKind
    ++ skipNone "data" Value.json x.data)

/-- Derived `Deserialize`. bsp-types/src/bt_run.rs:7-30. -/
def dec [Ext] (j : Json) : Option BuildTargetRun := do
  let s ← structSrc fields j
  let target ← s.req 0 "target" BuildTargetIdentifier.dec
  let originId ← s.opt 1 "originId" decStr
  let arguments ← s.opt 2 "arguments" decStr
  let dataKind ← s.opt 3 "dataKind" decStr
  let data ← s.opt 4 "data" decValue
  return { target, originId, arguments, dataKind, data }

/-- What is left of a value after the wire. bsp-types/src/bt_run.rs:7-30. -/
def norm [Ext] (x : BuildTargetRun) : BuildTargetRun :=
  { x with data := normData x.data }

theorem dec_enc [LawfulExt] (x : BuildTargetRun) : dec (canon (enc x)) = some x.norm := by
  simp only [dec, enc, structSrc_canon_obj]
  generalize hms : (fld "target" (BuildTargetIdentifier.enc x.target) ++ skipNone "originId" Json.str x.originId ++ skipNone "arguments" Json.str x.arguments ++ skipNone "dataKind" Json.str x.dataKind ++ skipNone "data" Value.json x.data : Members) = ms
  have h0 : (Src.map (canonMembers ms [])).req 0 "target" BuildTargetIdentifier.dec = some (x.target) :=
    req_canon (j := BuildTargetIdentifier.enc x.target) 0 (by subst hms; simp [lookupLast_append, lookupLast_fld, lookupLast_skipNone, lookupLast_skipIf]) (BuildTargetIdentifier.dec_enc x.target)
  have h1 : (Src.map (canonMembers ms [])).opt 1 "originId" decStr = some x.originId := by
    have := opt_canon_skip (k := "originId") (ms := ms) (dec := decStr) (enc := Json.str) (o := x.originId) (n := Option.map _root_.id) 1 (by subst hms; simp [lookupLast_append, lookupLast_fld, lookupLast_skipNone, lookupLast_skipIf]) rfl (decOpt_canon (n := _root_.id) (by simp) dec_str)
    simpa using this
  have h2 : (Src.map (canonMembers ms [])).opt 2 "arguments" decStr = some x.arguments := by
    have := opt_canon_skip (k := "arguments") (ms := ms) (dec := decStr) (enc := Json.str) (o := x.arguments) (n := Option.map _root_.id) 2 (by subst hms; simp [lookupLast_append, lookupLast_fld, lookupLast_skipNone, lookupLast_skipIf]) rfl (decOpt_canon (n := _root_.id) (by simp) dec_str)
    simpa using this
  have h3 : (Src.map (canonMembers ms [])).opt 3 "dataKind" decStr = some x.dataKind := by
    have := opt_canon_skip (k := "dataKind") (ms := ms) (dec := decStr) (enc := Json.str) (o := x.dataKind) (n := Option.map _root_.id) 3 (by subst hms; simp [lookupLast_append, lookupLast_fld, lookupLast_skipNone, lookupLast_skipIf]) rfl (decOpt_canon (n := _root_.id) (by simp) dec_str)
    simpa using this
  have h4 : (Src.map (canonMembers ms [])).opt 4 "data" decValue = some (normData x.data) :=
    opt_canon_skip (enc := Value.json) (o := x.data) (n := normData) 4 (by subst hms; simp [lookupLast_append, lookupLast_fld, lookupLast_skipNone, lookupLast_skipIf]) rfl decOpt_value
  exact (bind_of_some rfl).trans ((bind_of_some h0).trans ((bind_of_some h1).trans ((bind_of_some h2).trans ((bind_of_some h3).trans (bind_of_some h4)))))

theorem dec_congr [Ext] {a b : Members} (h : SameOn fields a b) : dec (.obj a) = dec (.obj b) := by
  have h0 : List.lookup "target" a = List.lookup "target" b := h.lookup (by simp [fields])
  have h1 : List.lookup "originId" a = List.lookup "originId" b := h.lookup (by simp [fields])
  have h2 : List.lookup "arguments" a = List.lookup "arguments" b := h.lookup (by simp [fields])
  have h3 : List.lookup "dataKind" a = List.lookup "dataKind" b := h.lookup (by simp [fields])
  have h4 : List.lookup "data" a = List.lookup "data" b := h.lookup (by simp [fields])
  simp only [dec, structSrc, h.dup]
  split
  · rfl
  · simp only [Option.bind_eq_bind, Option.bind_some, Src.req, Src.opt, Src.dflt, Src.get, h0, h1, h2, h3, h4]

theorem dec_missing_target [Ext] {ms : Members} (h : List.lookup "target" ms = none) :
    dec (.obj ms) = none := by
  simp only [dec, structSrc]
  split
  · rfl
  · simp [Src.req, Src.get, h]

theorem dec_absent_originId [Ext] {ms : Members} (h : List.lookup "originId" ms = none) :
    dec (.obj ms) = dec (.obj (("originId", .null) :: ms)) := by
  simp only [dec, structSrc, dupKnown_cons fields _ _ h]
  split
  · rfl
  · simp [Src.req, Src.opt, Src.dflt, Src.get, lookup_cons', h, decOpt]

theorem dec_absent_arguments [Ext] {ms : Members} (h : List.lookup "arguments" ms = none) :
    dec (.obj ms) = dec (.obj (("arguments", .null) :: ms)) := by
  simp only [dec, structSrc, dupKnown_cons fields _ _ h]
  split
  · rfl
  · simp [Src.req, Src.opt, Src.dflt, Src.get, lookup_cons', h, decOpt]

theorem dec_absent_dataKind [Ext] {ms : Members} (h : List.lookup "dataKind" ms = none) :
    dec (.obj ms) = dec (.obj (("dataKind", .null) :: ms)) := by
  simp only [dec, structSrc, dupKnown_cons fields _ _ h]
  split
  · rfl
  · simp [Src.req, Src.opt, Src.dflt, Src.get, lookup_cons', h, decOpt]

theorem dec_absent_data [Ext] {ms : Members} (h : List.lookup "data" ms = none) :
    dec (.obj ms) = dec (.obj (("data", .null) :: ms)) := by
  simp only [dec, structSrc, dupKnown_cons fields _ _ h]
  split
  · rfl
  · simp [Src.req, Src.opt, Src.dflt, Src.get, lookup_cons', h, decOpt]

end BuildTargetRun

/-! ### BuildTargetTest -/

/-- bsp-types/src/bt_test.rs:8-31. -/
structure BuildTargetTest [Ext] where
  target : BuildTargetIdentifier
  originId : Option String
  arguments : Option String
  dataKind : Option String
  data : Option Value

namespace BuildTargetTest

/-- Wire names of the fields, in declaration order. bsp-types/src/bt_test.rs:8-31. -/
def fields : List String := ["target", "originId", "arguments", "dataKind", "data"]

/-- Derived `Serialize`. bsp-types/src/bt_test.rs:8-31. -/
def enc [Ext] (x : BuildTargetTest) : Json :=
  .obj (fld "target" (BuildTargetIdentifier.enc x.target)
    ++ skipNone "originId" Json.str x.originId
    ++ skipNone "arguments" Json.str x.arguments
    ++ skipNone "dataKind" Json.str x.dataKind
    ++ skipNone "data" Value.json x.data)

/-- Derived `Deserialize`. bsp-types/src/bt_test.rs:8-31. -/
def dec [Ext] (j : Json) : Option BuildTargetTest := do
  let s ← structSrc fields j
  let target ← s.req 0 "target" BuildTargetIdentifier.dec
  let originId ← s.opt 1 "originId" decStr
  let arguments ← s.opt 2 "arguments" decStr
  let dataKind ← s.opt 3 "dataKind" decStr
  let data ← s.opt 4 "data" decValue
  return { target, originId, arguments, dataKind, data }

/-- What is left of a value after the wire. bsp-types/src/bt_test.rs:8-31. -/
def norm [Ext] (x : BuildTargetTest) : BuildTargetTest :=
  { x with data := normData x.data }

theorem dec_enc [LawfulExt] (x : BuildTargetTest) : dec (canon (enc x)) = some x.norm := by
  simp only [dec, enc, structSrc_canon_obj]
  generalize hms : (fld "target" (BuildTargetIdentifier.enc x.target) ++ skipNone "originId" Json.str x.originId ++ skipNone "arguments" Json.str x.arguments ++ skipNone "dataKind" Json.str x.dataKind ++ skipNone "data" Value.json x.data : Members) = ms
  have h0 : (Src.map (canonMembers ms [])).req 0 "target" BuildTargetIdentifier.dec = some (x.target) :=
    req_canon (j := BuildTargetIdentifier.enc x.target) 0 (by subst hms; simp [lookupLast_append, lookupLast_fld, lookupLast_skipNone, lookupLast_skipIf]) (BuildTargetIdentifier.dec_enc x.target)
  have h1 : (Src.map (canonMembers ms [])).opt 1 "originId" decStr = some x.originId := by
    have := opt_canon_skip (k := "originId") (ms := ms) (dec := decStr) (enc := Json.str) (o := x.originId) (n := Option.map _root_.id) 1 (by subst hms; simp [lookupLast_append, lookupLast_fld, lookupLast_skipNone, lookupLast_skipIf]) rfl (decOpt_canon (n := _root_.id) (by simp) dec_str)
    simpa using this
  have h2 : (Src.map (canonMembers ms [])).opt 2 "arguments" decStr = some x.arguments := by
    have := opt_canon_skip (k := "arguments") (ms := ms) (dec := decStr) (enc := Json.str) (o := x.arguments) (n := Option.map _root_.id) 2 (by subst hms; simp [lookupLast_append, lookupLast_fld, lookupLast_skipNone, lookupLast_skipIf]) rfl (decOpt_canon (n := _root_.id) (by simp) dec_str)
    simpa using this
  have h3 : (Src.map (canonMembers ms [])).opt 3 "dataKind" decStr = some x.dataKind := by
    have := opt_canon_skip (k := "dataKind") (ms := ms) (dec := decStr) (enc := Json.str) (o := x.dataKind) (n := Option.map _root_.id) 3 (by subst hms; simp [lookupLast_append, lookupLast_fld, lookupLast_skipNone, lookupLast_skipIf]) rfl (decOpt_canon (n := _root_.id) (by simp) dec_str)
    simpa using this
  have h4 : (Src.map (canonMembers ms [])).opt 4 "data" decValue = some (normData x.data) :=
    opt_canon_skip (enc := Value.json) (o := x.data) (n := normData) 4 (by subst hms; simp [lookupLast_append, lookupLast_fld, lookupLast_skipNone, lookupLast_skipIf]) rfl decOpt_value
  exact (bind_of_some rfl).trans ((bind_of_some h0).trans ((bind_of_some h1).trans ((bind_of_some h2).trans ((bind_of_some h3).trans (bind_of_some h4)))))

theorem dec_congr [Ext] {a b : Members} (h : SameOn fields a b) : dec (.obj a) = dec (.obj b) := by
  have h0 : List.lookup "target" a = List.lookup "target" b := h.lookup (by simp [fields])
  have h1 : List.lookup "originId" a = List.lookup "originId" b := h.lookup (by simp [fields])
  have h2 : List.lookup "arguments" a = List.lookup "arguments" b := h.lookup (by simp [fields])
  have h3 : List.lookup "dataKind" a = List.lookup "dataKind" b := h.lookup (by simp [fields])
  have h4 : List.lookup "data" a = List.lookup "data" b := h.lookup (by simp [fields])
  simp only [dec, structSrc, h.dup]
  split
  · rfl
  · simp only [Option.bind_eq_bind, Option.bind_some, Src.req, Src.opt, Src.dflt, Src.get, h0, h1, h2, h3, h4]

theorem dec_missing_target [Ext] {ms : Members} (h : List.lookup "target" ms = none) :
    dec (.obj ms) = none := by
  simp only [dec, structSrc]
  split
  · rfl
  · simp [Src.req, Src.get, h]

theorem dec_absent_originId [Ext] {ms : Members} (h : List.lookup "originId" ms = none) :
    dec (.obj ms) = dec (.obj (("originId", .null) :: ms)) := by
  simp only [dec, structSrc, dupKnown_cons fields _ _ h]
  split
  · rfl
  · simp [Src.req, Src.opt, Src.dflt, Src.get, lookup_cons', h, decOpt]

theorem dec_absent_arguments [Ext] {ms : Members} (h : List.lookup "arguments" ms = none) :
    dec (.obj ms) = dec (.obj (("arguments", .null) :: ms)) := by
  simp only [dec, structSrc, dupKnown_cons fields _ _ h]
  split
  · rfl
  · simp [Src.req, Src.opt, Src.dflt, Src.get, lookup_cons', h, decOpt]

theorem dec_absent_dataKind [Ext] {ms : Members} (h : List.lookup "dataKind" ms = none) :
    dec (.obj ms) = dec (.obj (("dataKind", .null) :: ms)) := by
  simp only [dec, structSrc, dupKnown_cons fields _ _ h]
  split
  · rfl
  · simp [Src.req, Src.opt, Src.dflt, Src.get, lookup_cons', h, decOpt]

theorem dec_absent_data [Ext] {ms : Members} (h : List.lookup "data" ms = none) :
    dec (.obj ms) = dec (.obj (("data", .null) :: ms)) := by
  simp only [dec, structSrc, dupKnown_cons fields _ _ h]
  split
  · rfl
  · simp [Src.req, Src.opt, Src.dflt, Src.get, lookup_cons', h, decOpt]

end BuildTargetTest

/-! ### BuildTargetDependencySources -/

/-- bsp-types/src/bt_dependency_sources.rs:13-17. -/
structure BuildTargetDependencySources [Ext] where
  textDocument : TextDocumentIdentifier

namespace BuildTargetDependencySources

/-- Wire names of the fields, in declaration order. bsp-types/src/bt_dependency_sources.rs:13-17. -/
def fields : List String := ["textDocument"]

/-- Derived `Serialize`. bsp-types/src/bt_dependency_sources.rs:13-17. -/
def enc [Ext] (x : BuildTargetDependencySources) : Json :=
  .obj (fld "textDocument" (TextDocumentIdentifier.enc x.textDocument))

/-- Derived `Deserialize`. bsp-types/src/bt_dependency_sources.rs:13-17. -/
def dec [Ext] (j : Json) : Option BuildTargetDependencySources := do
  let s ← structSrc fields j
  let textDocument ← s.req 0 "textDocument" TextDocumentIdentifier.dec
  return { textDocument }

theorem dec_enc [LawfulExt] (x : BuildTargetDependencySources) : dec (canon (enc x)) = some x := by
  simp only [dec, enc, structSrc_canon_obj]
  generalize hms : (fld "textDocument" (TextDocumentIdentifier.enc x.textDocument) : Members) = ms
  have h0 : (Src.map (canonMembers ms [])).req 0 "textDocument" TextDocumentIdentifier.dec = some (x.textDocument) :=
    req_canon (j := TextDocumentIdentifier.enc x.textDocument) 0 (by subst hms; simp [lookupLast_append, lookupLast_fld, lookupLast_skipNone, lookupLast_skipIf]) (TextDocumentIdentifier.dec_enc x.textDocument)
  exact (bind_of_some rfl).trans (bind_of_some h0)

theorem dec_congr [Ext] {a b : Members} (h : SameOn fields a b) : dec (.obj a) = dec (.obj b) := by
  have h0 : List.lookup "textDocument" a = List.lookup "textDocument" b := h.lookup (by simp [fields])
  simp only [dec, structSrc, h.dup]
  split
  · rfl
  · simp only [Option.bind_eq_bind, Option.bind_some, Src.req, Src.opt, Src.dflt, Src.get, h0]

theorem dec_missing_textDocument [Ext] {ms : Members} (h : List.lookup "textDocument" ms = none) :
    dec (.obj ms) = none := by
  simp only [dec, structSrc]
  split
  · rfl
  · simp [Src.req, Src.get, h]

end BuildTargetDependencySources

/-! ### TextDocumentInverseSources -/

/-- bsp-types/src/bt_inverse_sources.rs:10-14. -/
structure TextDocumentInverseSources [Ext] where
  textDocument : TextDocumentIdentifier

namespace TextDocumentInverseSources

/-- Wire names of the fields, in declaration order. bsp-types/src/bt_inverse_sources.rs:10-14. -/
def fields : List String := ["textDocument"]

/-- Derived `Serialize`. bsp-types/src/bt_inverse_sources.rs:10-14. -/
def enc [Ext] (x : TextDocumentInverseSources) : Json :=
  .obj (fld "textDocument" (TextDocumentIdentifier.enc x.textDocument))

/-- Derived `Deserialize`. bsp-types/src/bt_inverse_sources.rs:10-14. -/
def dec [Ext] (j : Json) : Option TextDocumentInverseSources := do
  let s ← structSrc fields j
  let textDocument ← s.req 0 "textDocument" TextDocumentIdentifier.dec
  return { textDocument }

theorem dec_enc [LawfulExt] (x : TextDocumentInverseSources) : dec (canon (enc x)) = some x := by
  simp only [dec, enc, structSrc_canon_obj]
  generalize hms : (fld "textDocument" (TextDocumentIdentifier.enc x.textDocument) : Members) = ms
  have h0 : (Src.map (canonMembers ms [])).req 0 "textDocument" TextDocumentIdentifier.dec = some (x.textDocument) :=
    req_canon (j := TextDocumentIdentifier.enc x.textDocument) 0 (by subst hms; simp [lookupLast_append, lookupLast_fld, lookupLast_skipNone, lookupLast_skipIf]) (TextDocumentIdentifier.dec_enc x.textDocument)
  exact (bind_of_some rfl).trans (bind_of_some h0)

theorem dec_congr [Ext] {a b : Members} (h : SameOn fields a b) : dec (.obj a) = dec (.obj b) := by
  have h0 : List.lookup "textDocument" a = List.lookup "textDocument" b := h.lookup (by simp [fields])
  simp only [dec, structSrc, h.dup]
  split
  · rfl
  · simp only [Option.bind_eq_bind, Option.bind_some, Src.req, Src.opt, Src.dflt, Src.get, h0]

theorem dec_missing_textDocument [Ext] {ms : Members} (h : List.lookup "textDocument" ms = none) :
    dec (.obj ms) = none := by
  simp only [dec, structSrc]
  split
  · rfl
  · simp [Src.req, Src.get, h]

end TextDocumentInverseSources

/-! ### DebugSessionStart -/

/-- bsp-types/src/debug_session_start.rs:8-22. -/
structure DebugSessionStart [Ext] where
  targets : List BuildTargetIdentifier
  dataKind : String
  data : Value

namespace DebugSessionStart

/-- Wire names of the fields, in declaration order. bsp-types/src/debug_session_start.rs:8-22. -/
def fields : List String := ["targets", "dataKind", "data"]

/-- Derived `Serialize`. bsp-types/src/debug_session_start.rs:8-22. -/
def enc [Ext] (x : DebugSessionStart) : Json :=
  .obj (fld "targets" (encList BuildTargetIdentifier.enc x.targets)
    ++ fld "dataKind" (Json.str x.dataKind)
    ++ skipIf x.data.isNull "data" x.data.json)

/-- Derived `Deserialize` with struct-level `default`. bsp-types/src/debug_session_start.rs:8-22. -/
def dec [Ext] (j : Json) : Option DebugSessionStart := do
  let s ← structSrc fields j
  let targets ← s.dflt 0 "targets" [] (decList BuildTargetIdentifier.dec)
  let dataKind ← s.dflt 1 "dataKind" "" decStr
  let data ← s.dflt 2 "data" Value.null decValue
  return { targets, dataKind, data }

theorem dec_enc [LawfulExt] (x : DebugSessionStart) : dec (canon (enc x)) = some x := by
  simp only [dec, enc, structSrc_canon_obj]
  generalize hms : (fld "targets" (encList BuildTargetIdentifier.enc x.targets) ++ fld "dataKind" (Json.str x.dataKind) ++ skipIf x.data.isNull "data" x.data.json : Members) = ms
  have h0 : (Src.map (canonMembers ms [])).dflt 0 "targets" [] (decList BuildTargetIdentifier.dec) = some (x.targets) := by
    refine dflt_canon 0 (o := some (encList BuildTargetIdentifier.enc x.targets)) (by subst hms; simp [lookupLast_append, lookupLast_fld, lookupLast_skipNone, lookupLast_skipIf]) (by simp) ?_
    intro j hj; cases hj; exact dec_list_id BuildTargetIdentifier.dec_enc x.targets
  have h1 : (Src.map (canonMembers ms [])).dflt 1 "dataKind" "" decStr = some (x.dataKind) := by
    refine dflt_canon 1 (o := some (Json.str x.dataKind)) (by subst hms; simp [lookupLast_append, lookupLast_fld, lookupLast_skipNone, lookupLast_skipIf]) (by simp) ?_
    intro j hj; cases hj; exact dec_str x.dataKind
  have h2 : (Src.map (canonMembers ms [])).dflt 2 "data" Value.null decValue = some (x.data) := by
    refine dflt_canon 2 (o := if x.data.isNull then none else some (Value.json x.data)) (by subst hms; simp [lookupLast_append, lookupLast_fld, lookupLast_skipNone, lookupLast_skipIf]) ?_ ?_
    · intro h; simp [Value.isNull_iff] at h; simp [h]
    · intro j hj; split at hj
      · cases hj
      · cases hj; exact dec_value x.data
  exact (bind_of_some rfl).trans ((bind_of_some h0).trans ((bind_of_some h1).trans (bind_of_some h2)))

theorem dec_congr [Ext] {a b : Members} (h : SameOn fields a b) : dec (.obj a) = dec (.obj b) := by
  have h0 : List.lookup "targets" a = List.lookup "targets" b := h.lookup (by simp [fields])
  have h1 : List.lookup "dataKind" a = List.lookup "dataKind" b := h.lookup (by simp [fields])
  have h2 : List.lookup "data" a = List.lookup "data" b := h.lookup (by simp [fields])
  simp only [dec, structSrc, h.dup]
  split
  · rfl
  · simp only [Option.bind_eq_bind, Option.bind_some, Src.req, Src.opt, Src.dflt, Src.get, h0, h1, h2]

theorem dec_absent_targets [Ext] {ms : Members} (h : List.lookup "targets" ms = none) :
    dec (.obj ms) = dec (.obj (("targets", .arr []) :: ms)) := by
  simp only [dec, structSrc, dupKnown_cons fields _ _ h]
  split
  · rfl
  · simp [Src.req, Src.opt, Src.dflt, Src.get, lookup_cons', h, decList]

theorem dec_absent_dataKind [Ext] {ms : Members} (h : List.lookup "dataKind" ms = none) :
    dec (.obj ms) = dec (.obj (("dataKind", .str "") :: ms)) := by
  simp only [dec, structSrc, dupKnown_cons fields _ _ h]
  split
  · rfl
  · simp [Src.req, Src.opt, Src.dflt, Src.get, lookup_cons', h, decStr]

theorem dec_absent_data [Ext] {ms : Members} (h : List.lookup "data" ms = none) :
    dec (.obj ms) = dec (.obj (("data", .null) :: ms)) := by
  simp only [dec, structSrc, dupKnown_cons fields _ _ h]
  split
  · rfl
  · simp [Src.req, Src.opt, Src.dflt, Src.get, lookup_cons', h, decValue]; rfl

end DebugSessionStart

/-! ### TaskId -/

/-- bsp-types/src/task/id.rs:3-18. -/
structure TaskId where
  id : String
  parents : List String

namespace TaskId

/-- Wire names of the fields, in declaration order. bsp-types/src/task/id.rs:3-18. -/
def fields : List String := ["id", "parents"]

/-- Derived `Serialize`. bsp-types/src/task/id.rs:3-18. -/
def enc (x : TaskId) : Json :=
  .obj (fld "id" (Json.str x.id)
    ++ skipIf x.parents.isEmpty "parents" (encList Json.str x.parents))

/-- Derived `Default`. bsp-types/src/task/id.rs:3-18. -/
def default : TaskId := ⟨"", []⟩

/-- Derived `Deserialize` with struct-level `default`. bsp-types/src/task/id.rs:3-18. -/
def dec (j : Json) : Option TaskId := do
  let s ← structSrc fields j
  let id ← s.dflt 0 "id" "" decStr
  let parents ← s.dflt 1 "parents" [] (decList decStr)
  return { id, parents }

theorem dec_enc (x : TaskId) : dec (canon (enc x)) = some x := by
  simp only [dec, enc, structSrc_canon_obj]
  generalize hms : (fld "id" (Json.str x.id) ++ skipIf x.parents.isEmpty "parents" (encList Json.str x.parents) : Members) = ms
  have h0 : (Src.map (canonMembers ms [])).dflt 0 "id" "" decStr = some (x.id) := by
    refine dflt_canon 0 (o := some (Json.str x.id)) (by subst hms; simp [lookupLast_append, lookupLast_fld, lookupLast_skipNone, lookupLast_skipIf]) (by simp) ?_
    intro j hj; cases hj; exact dec_str x.id
  have h1 : (Src.map (canonMembers ms [])).dflt 1 "parents" [] (decList decStr) = some (x.parents) := by
    refine dflt_canon 1 (o := if x.parents.isEmpty then none else some (encList Json.str x.parents)) (by subst hms; simp [lookupLast_append, lookupLast_fld, lookupLast_skipNone, lookupLast_skipIf]) ?_ ?_
    · intro h; simp at h; simp [h]
    · intro j hj; split at hj
      · cases hj
      · cases hj; exact dec_list_id dec_str x.parents
  exact (bind_of_some rfl).trans ((bind_of_some h0).trans (bind_of_some h1))

theorem dec_congr {a b : Members} (h : SameOn fields a b) : dec (.obj a) = dec (.obj b) := by
  have h0 : List.lookup "id" a = List.lookup "id" b := h.lookup (by simp [fields])
  have h1 : List.lookup "parents" a = List.lookup "parents" b := h.lookup (by simp [fields])
  simp only [dec, structSrc, h.dup]
  split
  · rfl
  · simp only [Option.bind_eq_bind, Option.bind_some, Src.req, Src.opt, Src.dflt, Src.get, h0, h1]

theorem dec_absent_id {ms : Members} (h : List.lookup "id" ms = none) :
    dec (.obj ms) = dec (.obj (("id", .str "") :: ms)) := by
  simp only [dec, structSrc, dupKnown_cons fields _ _ h]
  split
  · rfl
  · simp [Src.req, Src.opt, Src.dflt, Src.get, lookup_cons', h, decStr]

theorem dec_absent_parents {ms : Members} (h : List.lookup "parents" ms = none) :
    dec (.obj ms) = dec (.obj (("parents", .arr []) :: ms)) := by
  simp only [dec, structSrc, dupKnown_cons fields _ _ h]
  split
  · rfl
  · simp [Src.req, Src.opt, Src.dflt, Src.get, lookup_cons', h, decList]

theorem dec_default : dec (.obj []) = some default := by
  simp [dec, structSrc, dupKnown, fields, named, Src.dflt, Src.get, default]

end TaskId

/-! ### ShowMessage -/

/-- bsp-types/src/show_message.rs:13-30. -/
structure ShowMessage where
  typ : MessageType
  message : String
  task : Option TaskId
  originId : Option String

namespace ShowMessage

/-- Wire names of the fields, in declaration order. bsp-types/src/show_message.rs:13-30. -/
def fields : List String := ["type", "message", "task", "originId"]

/-- Derived `Serialize`. bsp-types/src/show_message.rs:13-30. -/
def enc (x : ShowMessage) : Json :=
  .obj (fld "type" (MessageType.enc x.typ)
    ++ fld "message" (Json.str x.message)
    ++ skipNone "task" TaskId.enc x.task
    ++ skipNone "originId" Json.str x.originId)

/-- Derived `Deserialize`. bsp-types/src/show_message.rs:13-30. -/
def dec (j : Json) : Option ShowMessage := do
  let s ← structSrc fields j
  let typ ← s.req 0 "type" MessageType.dec
  let message ← s.req 1 "message" decStr
  let task ← s.opt 2 "task" TaskId.dec
  let originId ← s.opt 3 "originId" decStr
  return { typ, message, task, originId }

theorem dec_enc (x : ShowMessage) : dec (canon (enc x)) = some x := by
  simp only [dec, enc, structSrc_canon_obj]
  generalize hms : (fld "type" (MessageType.enc x.typ) ++ fld "message" (Json.str x.message) ++ skipNone "task" TaskId.enc x.task ++ skipNone "originId" Json.str x.originId : Members) = ms
  have h0 : (Src.map (canonMembers ms [])).req 0 "type" MessageType.dec = some (x.typ) :=
    req_canon (j := MessageType.enc x.typ) 0 (by subst hms; simp [lookupLast_append, lookupLast_fld, lookupLast_skipNone, lookupLast_skipIf]) (MessageType.dec_enc x.typ)
  have h1 : (Src.map (canonMembers ms [])).req 1 "message" decStr = some (x.message) :=
    req_canon (j := Json.str x.message) 1 (by subst hms; simp [lookupLast_append, lookupLast_fld, lookupLast_skipNone, lookupLast_skipIf]) (dec_str x.message)
  have h2 : (Src.map (canonMembers ms [])).opt 2 "task" TaskId.dec = some x.task := by
    have := opt_canon_skip (k := "task") (ms := ms) (dec := TaskId.dec) (enc := TaskId.enc) (o := x.task) (n := Option.map _root_.id) 2 (by subst hms; simp [lookupLast_append, lookupLast_fld, lookupLast_skipNone, lookupLast_skipIf]) rfl (decOpt_canon (n := _root_.id) (fun _ => canon_obj_ne_null _) TaskId.dec_enc)
    simpa using this
  have h3 : (Src.map (canonMembers ms [])).opt 3 "originId" decStr = some x.originId := by
    have := opt_canon_skip (k := "originId") (ms := ms) (dec := decStr) (enc := Json.str) (o := x.originId) (n := Option.map _root_.id) 3 (by subst hms; simp [lookupLast_append, lookupLast_fld, lookupLast_skipNone, lookupLast_skipIf]) rfl (decOpt_canon (n := _root_.id) (by simp) dec_str)
    simpa using this
  exact (bind_of_some rfl).trans ((bind_of_some h0).trans ((bind_of_some h1).trans ((bind_of_some h2).trans (bind_of_some h3))))

theorem dec_congr {a b : Members} (h : SameOn fields a b) : dec (.obj a) = dec (.obj b) := by
  have h0 : List.lookup "type" a = List.lookup "type" b := h.lookup (by simp [fields])
  have h1 : List.lookup "message" a = List.lookup "message" b := h.lookup (by simp [fields])
  have h2 : List.lookup "task" a = List.lookup "task" b := h.lookup (by simp [fields])
  have h3 : List.lookup "originId" a = List.lookup "originId" b := h.lookup (by simp [fields])
  simp only [dec, structSrc, h.dup]
  split
  · rfl
  · simp only [Option.bind_eq_bind, Option.bind_some, Src.req, Src.opt, Src.dflt, Src.get, h0, h1, h2, h3]

theorem dec_missing_typ {ms : Members} (h : List.lookup "type" ms = none) :
    dec (.obj ms) = none := by
  simp only [dec, structSrc]
  split
  · rfl
  · simp [Src.req, Src.get, h]

theorem dec_missing_message {ms : Members} (h : List.lookup "message" ms = none) :
    dec (.obj ms) = none := by
  simp only [dec, structSrc]
  split
  · rfl
  · simp [Src.req, Src.get, h]

theorem dec_absent_task {ms : Members} (h : List.lookup "task" ms = none) :
    dec (.obj ms) = dec (.obj (("task", .null) :: ms)) := by
  simp only [dec, structSrc, dupKnown_cons fields _ _ h]
  split
  · rfl
  · simp [Src.req, Src.opt, Src.dflt, Src.get, lookup_cons', h, decOpt]

theorem dec_absent_originId {ms : Members} (h : List.lookup "originId" ms = none) :
    dec (.obj ms) = dec (.obj (("originId", .null) :: ms)) := by
  simp only [dec, structSrc, dupKnown_cons fields _ _ h]
  split
  · rfl
  · simp [Src.req, Src.opt, Src.dflt, Src.get, lookup_cons', h, decOpt]

end ShowMessage

/-! ### LogMessage -/

/-- bsp-types/src/log_message.rs:13-30. -/
structure LogMessage where
  typ : MessageType
  task : Option TaskId
  originId : Option String
  message : String

namespace LogMessage

/-- Wire names of the fields, in declaration order. bsp-types/src/log_message.rs:13-30. -/
def fields : List String := ["type", "task", "originId", "message"]

/-- Derived `Serialize`. bsp-types/src/log_message.rs:13-30. -/
def enc (x : LogMessage) : Json :=
  .obj (fld "type" (MessageType.enc x.typ)
    ++ skipNone "task" TaskId.enc x.task
    ++ skipNone "originId" Json.str x.originId
    ++ fld "message" (Json.str x.message))

/-- Derived `Deserialize`. bsp-types/src/log_message.rs:13-30. -/
def dec (j : Json) : Option LogMessage := do
  let s ← structSrc fields j
  let typ ← s.req 0 "type" MessageType.dec
  let task ← s.opt 1 "task" TaskId.dec
  let originId ← s.opt 2 "originId" decStr
  let message ← s.req 3 "message" decStr
  return { typ, task, originId, message }

theorem dec_enc (x : LogMessage) : dec (canon (enc x)) = some x := by
  simp only [dec, enc, structSrc_canon_obj]
  generalize hms : (fld "type" (MessageType.enc x.typ) ++ skipNone "task" TaskId.enc x.task ++ skipNone "originId" Json.str x.originId ++ fld "message" (Json.str x.message) : Members) = ms
  have h0 : (Src.map (canonMembers ms [])).req 0 "type" MessageType.dec = some (x.typ) :=
    req_canon (j := MessageType.enc x.typ) 0 (by subst hms; simp [lookupLast_append, lookupLast_fld, lookupLast_skipNone, lookupLast_skipIf]) (MessageType.dec_enc x.typ)
  have h1 : (Src.map (canonMembers ms [])).opt 1 "task" TaskId.dec = some x.task := by
    have := opt_canon_skip (k := "task") (ms := ms) (dec := TaskId.dec) (enc := TaskId.enc) (o := x.task) (n := Option.map _root_.id) 1 (by subst hms; simp [lookupLast_append, lookupLast_fld, lookupLast_skipNone, lookupLast_skipIf]) rfl (decOpt_canon (n := _root_.id) (fun _ => canon_obj_ne_null _) TaskId.dec_enc)
    simpa using this
  have h2 : (Src.map (canonMembers ms [])).opt 2 "originId" decStr = some x.originId := by
    have := opt_canon_skip (k := "originId") (ms := ms) (dec := decStr) (enc := Json.str) (o := x.originId) (n := Option.map _root_.id) 2 (by subst hms; simp [lookupLast_append, lookupLast_fld, lookupLast_skipNone, lookupLast_skipIf]) rfl (decOpt_canon (n := _root_.id) (by simp) dec_str)
    simpa using this
  have h3 : (Src.map (canonMembers ms [])).req 3 "message" decStr = some (x.message) :=
    req_canon (j := Json.str x.message) 3 (by subst hms; simp [lookupLast_append, lookupLast_fld, lookupLast_skipNone, lookupLast_skipIf]) (dec_str x.message)
  exact (bind_of_some rfl).trans ((bind_of_some h0).trans ((bind_of_some h1).trans ((bind_of_some h2).trans (bind_of_some h3))))

theorem dec_congr {a b : Members} (h : SameOn fields a b) : dec (.obj a) = dec (.obj b) := by
  have h0 : List.lookup "type" a = List.lookup "type" b := h.lookup (by simp [fields])
  have h1 : List.lookup "task" a = List.lookup "task" b := h.lookup (by simp [fields])
  have h2 : List.lookup "originId" a = List.lookup "originId" b := h.lookup (by simp [fields])
  have h3 : List.lookup "message" a = List.lookup "message" b := h.lookup (by simp [fields])
  simp only [dec, structSrc, h.dup]
  split
  · rfl
  · simp only [Option.bind_eq_bind, Option.bind_some, Src.req, Src.opt, Src.dflt, Src.get, h0, h1, h2, h3]

theorem dec_missing_typ {ms : Members} (h : List.lookup "type" ms = none) :
    dec (.obj ms) = none := by
  simp only [dec, structSrc]
  split
  · rfl
  · simp [Src.req, Src.get, h]

theorem dec_absent_task {ms : Members} (h : List.lookup "task" ms = none) :
    dec (.obj ms) = dec (.obj (("task", .null) :: ms)) := by
  simp only [dec, structSrc, dupKnown_cons fields _ _ h]
  split
  · rfl
  · simp [Src.req, Src.opt, Src.dflt, Src.get, lookup_cons', h, decOpt]

theorem dec_absent_originId {ms : Members} (h : List.lookup "originId" ms = none) :
    dec (.obj ms) = dec (.obj (("originId", .null) :: ms)) := by
  simp only [dec, structSrc, dupKnown_cons fields _ _ h]
  split
  · rfl
  · simp [Src.req, Src.opt, Src.dflt, Src.get, lookup_cons', h, decOpt]

theorem dec_missing_message {ms : Members} (h : List.lookup "message" ms = none) :
    dec (.obj ms) = none := by
  simp only [dec, structSrc]
  split
  · rfl
  · simp [Src.req, Src.get, h]

end LogMessage

/-! ### Position -/

/-- lsp_types::Position (bsp-types/src/publish_diagnostics.rs:1, 22). -/
structure Position where
  line : UInt32
  character : UInt32

namespace Position

/-- Wire names of the fields, in declaration order. lsp_types::Position (bsp-types/src/publish_diagnostics.rs:1, 22). -/
def fields : List String := ["line", "character"]

/-- Derived `Serialize`. lsp_types::Position (bsp-types/src/publish_diagnostics.rs:1, 22). -/
def enc (x : Position) : Json :=
  .obj (fld "line" (encU32 x.line)
    ++ fld "character" (encU32 x.character))

/-- Derived `Deserialize`. lsp_types::Position (bsp-types/src/publish_diagnostics.rs:1, 22). -/
def dec (j : Json) : Option Position := do
  let s ← structSrc fields j
  let line ← s.req 0 "line" decU32
  let character ← s.req 1 "character" decU32
  return { line, character }

theorem dec_enc (x : Position) : dec (canon (enc x)) = some x := by
  simp only [dec, enc, structSrc_canon_obj]
  generalize hms : (fld "line" (encU32 x.line) ++ fld "character" (encU32 x.character) : Members) = ms
  have h0 : (Src.map (canonMembers ms [])).req 0 "line" decU32 = some (x.line) :=
    req_canon (j := encU32 x.line) 0 (by subst hms; simp [lookupLast_append, lookupLast_fld, lookupLast_skipNone, lookupLast_skipIf]) (dec_u32 x.line)
  have h1 : (Src.map (canonMembers ms [])).req 1 "character" decU32 = some (x.character) :=
    req_canon (j := encU32 x.character) 1 (by subst hms; simp [lookupLast_append, lookupLast_fld, lookupLast_skipNone, lookupLast_skipIf]) (dec_u32 x.character)
  exact (bind_of_some rfl).trans ((bind_of_some h0).trans (bind_of_some h1))

theorem dec_congr {a b : Members} (h : SameOn fields a b) : dec (.obj a) = dec (.obj b) := by
  have h0 : List.lookup "line" a = List.lookup "line" b := h.lookup (by simp [fields])
  have h1 : List.lookup "character" a = List.lookup "character" b := h.lookup (by simp [fields])
  simp only [dec, structSrc, h.dup]
  split
  · rfl
  · simp only [Option.bind_eq_bind, Option.bind_some, Src.req, Src.opt, Src.dflt, Src.get, h0, h1]

theorem dec_missing_line {ms : Members} (h : List.lookup "line" ms = none) :
    dec (.obj ms) = none := by
  simp only [dec, structSrc]
  split
  · rfl
  · simp [Src.req, Src.get, h]

theorem dec_missing_character {ms : Members} (h : List.lookup "character" ms = none) :
    dec (.obj ms) = none := by
  simp only [dec, structSrc]
  split
  · rfl
  · simp [Src.req, Src.get, h]

end Position

/-! ### Range -/

/-- lsp_types::Range (bsp-types/src/publish_diagnostics.rs:1, 22). -/
structure Range where
  start : Position
  end_ : Position

namespace Range

/-- Wire names of the fields, in declaration order. lsp_types::Range (bsp-types/src/publish_diagnostics.rs:1, 22). -/
def fields : List String := ["start", "end"]

/-- Derived `Serialize`. lsp_types::Range (bsp-types/src/publish_diagnostics.rs:1, 22). -/
def enc (x : Range) : Json :=
  .obj (fld "start" (Position.enc x.start)
    ++ fld "end" (Position.enc x.end_))

/-- Derived `Deserialize`. lsp_types::Range (bsp-types/src/publish_diagnostics.rs:1, 22). -/
def dec (j : Json) : Option Range := do
  let s ← structSrc fields j
  let start ← s.req 0 "start" Position.dec
  let end_ ← s.req 1 "end" Position.dec
  return { start, end_ }

theorem dec_enc (x : Range) : dec (canon (enc x)) = some x := by
  simp only [dec, enc, structSrc_canon_obj]
  generalize hms : (fld "start" (Position.enc x.start) ++ fld "end" (Position.enc x.end_) : Members) = ms
  have h0 : (Src.map (canonMembers ms [])).req 0 "start" Position.dec = some (x.start) :=
    req_canon (j := Position.enc x.start) 0 (by subst hms; simp [lookupLast_append, lookupLast_fld, lookupLast_skipNone, lookupLast_skipIf]) (Position.dec_enc x.start)
  have h1 : (Src.map (canonMembers ms [])).req 1 "end" Position.dec = some (x.end_) :=
    req_canon (j := Position.enc x.end_) 1 (by subst hms; simp [lookupLast_append, lookupLast_fld, lookupLast_skipNone, lookupLast_skipIf]) (Position.dec_enc x.end_)
  exact (bind_of_some rfl).trans ((bind_of_some h0).trans (bind_of_some h1))

theorem dec_congr {a b : Members} (h : SameOn fields a b) : dec (.obj a) = dec (.obj b) := by
  have h0 : List.lookup "start" a = List.lookup "start" b := h.lookup (by simp [fields])
  have h1 : List.lookup "end" a = List.lookup "end" b := h.lookup (by simp [fields])
  simp only [dec, structSrc, h.dup]
  split
  · rfl
  · simp only [Option.bind_eq_bind, Option.bind_some, Src.req, Src.opt, Src.dflt, Src.get, h0, h1]

theorem dec_missing_start {ms : Members} (h : List.lookup "start" ms = none) :
    dec (.obj ms) = none := by
  simp only [dec, structSrc]
  split
  · rfl
  · simp [Src.req, Src.get, h]

theorem dec_missing_end_ {ms : Members} (h : List.lookup "end" ms = none) :
    dec (.obj ms) = none := by
  simp only [dec, structSrc]
  split
  · rfl
  · simp [Src.req, Src.get, h]

end Range

/-! ### CodeDescription -/

/-- lsp_types::CodeDescription (bsp-types/src/publish_diagnostics.rs:1, 22). -/
structure CodeDescription [Ext] where
  href : Ext.Url

namespace CodeDescription

/-- Wire names of the fields, in declaration order. lsp_types::CodeDescription (bsp-types/src/publish_diagnostics.rs:1, 22). -/
def fields : List String := ["href"]

/-- Derived `Serialize`. lsp_types::CodeDescription (bsp-types/src/publish_diagnostics.rs:1, 22). -/
def enc [Ext] (x : CodeDescription) : Json :=
  .obj (fld "href" (encUrl x.href))

/-- Derived `Deserialize`. lsp_types::CodeDescription (bsp-types/src/publish_diagnostics.rs:1, 22). -/
def dec [Ext] (j : Json) : Option CodeDescription := do
  let s ← structSrc fields j
  let href ← s.req 0 "href" decUrl
  return { href }

theorem dec_enc [LawfulExt] (x : CodeDescription) : dec (canon (enc x)) = some x := by
  simp only [dec, enc, structSrc_canon_obj]
  generalize hms : (fld "href" (encUrl x.href) : Members) = ms
  have h0 : (Src.map (canonMembers ms [])).req 0 "href" decUrl = some (x.href) :=
    req_canon (j := encUrl x.href) 0 (by subst hms; simp [lookupLast_append, lookupLast_fld, lookupLast_skipNone, lookupLast_skipIf]) (dec_url x.href)
  exact (bind_of_some rfl).trans (bind_of_some h0)

theorem dec_congr [Ext] {a b : Members} (h : SameOn fields a b) : dec (.obj a) = dec (.obj b) := by
  have h0 : List.lookup "href" a = List.lookup "href" b := h.lookup (by simp [fields])
  simp only [dec, structSrc, h.dup]
  split
  · rfl
  · simp only [Option.bind_eq_bind, Option.bind_some, Src.req, Src.opt, Src.dflt, Src.get, h0]

theorem dec_missing_href [Ext] {ms : Members} (h : List.lookup "href" ms = none) :
    dec (.obj ms) = none := by
  simp only [dec, structSrc]
  split
  · rfl
  · simp [Src.req, Src.get, h]

end CodeDescription

/-! ### Location -/

/-- lsp_types::Location (bsp-types/src/publish_diagnostics.rs:1, 22). -/
structure Location [Ext] where
  uri : Ext.Url
  range : Range

namespace Location

/-- Wire names of the fields, in declaration order. lsp_types::Location (bsp-types/src/publish_diagnostics.rs:1, 22). -/
def fields : List String := ["uri", "range"]

/-- Derived `Serialize`. lsp_types::Location (bsp-types/src/publish_diagnostics.rs:1, 22). -/
def enc [Ext] (x : Location) : Json :=
  .obj (fld "uri" (encUrl x.uri)
    ++ fld "range" (Range.enc x.range))

/-- Derived `Deserialize`. lsp_types::Location (bsp-types/src/publish_diagnostics.rs:1, 22). -/
def dec [Ext] (j : Json) : Option Location := do
  let s ← structSrc fields j
  let uri ← s.req 0 "uri" decUrl
  let range ← s.req 1 "range" Range.dec
  return { uri, range }

theorem dec_enc [LawfulExt] (x : Location) : dec (canon (enc x)) = some x := by
  simp only [dec, enc, structSrc_canon_obj]
  generalize hms : (fld "uri" (encUrl x.uri) ++ fld "range" (Range.enc x.range) : Members) = ms
  have h0 : (Src.map (canonMembers ms [])).req 0 "uri" decUrl = some (x.uri) :=
    req_canon (j := encUrl x.uri) 0 (by subst hms; simp [lookupLast_append, lookupLast_fld, lookupLast_skipNone, lookupLast_skipIf]) (dec_url x.uri)
  have h1 : (Src.map (canonMembers ms [])).req 1 "range" Range.dec = some (x.range) :=
    req_canon (j := Range.enc x.range) 1 (by subst hms; simp [lookupLast_append, lookupLast_fld, lookupLast_skipNone, lookupLast_skipIf]) (Range.dec_enc x.range)
  exact (bind_of_some rfl).trans ((bind_of_some h0).trans (bind_of_some h1))

theorem dec_congr [Ext] {a b : Members} (h : SameOn fields a b) : dec (.obj a) = dec (.obj b) := by
  have h0 : List.lookup "uri" a = List.lookup "uri" b := h.lookup (by simp [fields])
  have h1 : List.lookup "range" a = List.lookup "range" b := h.lookup (by simp [fields])
  simp only [dec, structSrc, h.dup]
  split
  · rfl
  · simp only [Option.bind_eq_bind, Option.bind_some, Src.req, Src.opt, Src.dflt, Src.get, h0, h1]

theorem dec_missing_uri [Ext] {ms : Members} (h : List.lookup "uri" ms = none) :
    dec (.obj ms) = none := by
  simp only [dec, structSrc]
  split
  · rfl
  · simp [Src.req, Src.get, h]

theorem dec_missing_range [Ext] {ms : Members} (h : List.lookup "range" ms = none) :
    dec (.obj ms) = none := by
  simp only [dec, structSrc]
  split
  · rfl
  · simp [Src.req, Src.get, h]

end Location

/-! ### DiagnosticRelatedInformation -/

/-- lsp_types::DiagnosticRelatedInformation (bsp-types/src/publish_diagnostics.rs:1, 22). -/
structure DiagnosticRelatedInformation [Ext] where
  location : Location
  message : String

namespace DiagnosticRelatedInformation

/-- Wire names of the fields, in declaration order. lsp_types::DiagnosticRelatedInformation (bsp-types/src/publish_diagnostics.rs:1, 22). -/
def fields : List String := ["location", "message"]

/-- Derived `Serialize`. lsp_types::DiagnosticRelatedInformation (bsp-types/src/publish_diagnostics.rs:1, 22). -/
def enc [Ext] (x : DiagnosticRelatedInformation) : Json :=
  .obj (fld "location" (Location.enc x.location)
    ++ fld "message" (Json.str x.message))

/-- Derived `Deserialize`. lsp_types::DiagnosticRelatedInformation (bsp-types/src/publish_diagnostics.rs:1, 22). -/
def dec [Ext] (j : Json) : Option DiagnosticRelatedInformation := do
  let s ← structSrc fields j
  let location ← s.req 0 "location" Location.dec
  let message ← s.req 1 "message" decStr
  return { location, message }

theorem dec_enc [LawfulExt] (x : DiagnosticRelatedInformation) : dec (canon (enc x)) = some x := by
  simp only [dec, enc, structSrc_canon_obj]
  generalize hms : (fld "location" (Location.enc x.location) ++ fld "message" (Json.str x.message) : Members) = ms
  have h0 : (Src.map (canonMembers ms [])).req 0 "location" Location.dec = some (x.location) :=
    req_canon (j := Location.enc x.location) 0 (by subst hms; simp [lookupLast_append, lookupLast_fld, lookupLast_skipNone, lookupLast_skipIf]) (Location.dec_enc x.location)
  have h1 : (Src.map (canonMembers ms [])).req 1 "message" decStr = some (x.message) :=
    req_canon (j := Json.str x.message) 1 (by subst hms; simp [lookupLast_append, lookupLast_fld, lookupLast_skipNone, lookupLast_skipIf]) (dec_str x.message)
  exact (bind_of_some rfl).trans ((bind_of_some h0).trans (bind_of_some h1))

theorem dec_congr [Ext] {a b : Members} (h : SameOn fields a b) : dec (.obj a) = dec (.obj b) := by
  have h0 : List.lookup "location" a = List.lookup "location" b := h.lookup (by simp [fields])
  have h1 : List.lookup "message" a = List.lookup "message" b := h.lookup (by simp [fields])
  simp only [dec, structSrc, h.dup]
  split
  · rfl
  · simp only [Option.bind_eq_bind, Option.bind_some, Src.req, Src.opt, Src.dflt, Src.get, h0, h1]

theorem dec_missing_location [Ext] {ms : Members} (h : List.lookup "location" ms = none) :
    dec (.obj ms) = none := by
  simp only [dec, structSrc]
  split
  · rfl
  · simp [Src.req, Src.get, h]

theorem dec_missing_message [Ext] {ms : Members} (h : List.lookup "message" ms = none) :
    dec (.obj ms) = none := by
  simp only [dec, structSrc]
  split
  · rfl
  · simp [Src.req, Src.get, h]

end DiagnosticRelatedInformation

/-! ### Diagnostic -/

/-- lsp_types::Diagnostic (bsp-types/src/publish_diagnostics.rs:1, 22). -/
structure Diagnostic [Ext] where
  range : Range
  severity : Option Int32
  code : Option NumberOrString
  codeDescription : Option CodeDescription
  source : Option String
  message : String
  relatedInformation : Option (List DiagnosticRelatedInformation)
  tags : Option (List Int32)
  data : Option Value

namespace Diagnostic

/-- Wire names of the fields, in declaration order. lsp_types::Diagnostic (bsp-types/src/publish_diagnostics.rs:1, 22). -/
def fields : List String := ["range", "severity", "code", "codeDescription", "source", "message", "relatedInformation", "tags", "data"]

/-- Derived `Serialize`. lsp_types::Diagnostic (bsp-types/src/publish_diagnostics.rs:1, 22). -/
def enc [Ext] (x : Diagnostic) : Json :=
  .obj (fld "range" (Range.enc x.range)
    ++ skipNone "severity" encI32 x.severity
    ++ skipNone "code" NumberOrString.enc x.code
    ++ skipNone "codeDescription" CodeDescription.enc x.codeDescription
    ++ skipNone "source" Json.str x.source
    ++ fld "message" (Json.str x.message)
    ++ skipNone "relatedInformation" (encList DiagnosticRelatedInformation.enc) x.relatedInformation
    ++ skipNone "tags" (encList encI32) x.tags
    ++ skipNone "data" Value.json x.data)

/-- Derived `Deserialize`. lsp_types::Diagnostic (bsp-types/src/publish_diagnostics.rs:1, 22). -/
def dec [Ext] (j : Json) : Option Diagnostic := do
  let s ← structSrc fields j
  let range ← s.req 0 "range" Range.dec
  let severity ← s.opt 1 "severity" decI32
  let code ← s.opt 2 "code" NumberOrString.dec
  let codeDescription ← s.opt 3 "codeDescription" CodeDescription.dec
  let source ← s.opt 4 "source" decStr
  let message ← s.req 5 "message" decStr
  let relatedInformation ← s.opt 6 "relatedInformation" (decList DiagnosticRelatedInformation.dec)
  let tags ← s.opt 7 "tags" (decList decI32)
  let data ← s.opt 8 "data" decValue
  return { range, severity, code, codeDescription, source, message, relatedInformation, tags, data }

/-- What is left of a value after the wire. lsp_types::Diagnostic (bsp-types/src/publish_diagnostics.rs:1, 22). -/
def norm [Ext] (x : Diagnostic) : Diagnostic :=
  { x with data := normData x.data }

theorem dec_enc [LawfulExt] (x : Diagnostic) : dec (canon (enc x)) = some x.norm := by
  simp only [dec, enc, structSrc_canon_obj]
  generalize hms : (fld "range" (Range.enc x.range) ++ skipNone "severity" encI32 x.severity ++ skipNone "code" NumberOrString.enc x.code ++ skipNone "codeDescription" CodeDescription.enc x.codeDescription ++ skipNone "source" Json.str x.source ++ fld "message" (Json.str x.message) ++ skipNone "relatedInformation" (encList DiagnosticRelatedInformation.enc) x.relatedInformation ++ skipNone "tags" (encList encI32) x.tags ++ skipNone "data" Value.json x.data : Members) = ms
  have h0 : (Src.map (canonMembers ms [])).req 0 "range" Range.dec = some (x.range) :=
    req_canon (j := Range.enc x.range) 0 (by subst hms; simp [lookupLast_append, lookupLast_fld, lookupLast_skipNone, lookupLast_skipIf]) (Range.dec_enc x.range)
  have h1 : (Src.map (canonMembers ms [])).opt 1 "severity" decI32 = some x.severity := by
    have := opt_canon_skip (k := "severity") (ms := ms) (dec := decI32) (enc := encI32) (o := x.severity) (n := Option.map _root_.id) 1 (by subst hms; simp [lookupLast_append, lookupLast_fld, lookupLast_skipNone, lookupLast_skipIf]) rfl (decOpt_canon (n := _root_.id) (by simp [encI32]) dec_i32)
    simpa using this
  have h2 : (Src.map (canonMembers ms [])).opt 2 "code" NumberOrString.dec = some x.code := by
    have := opt_canon_skip (k := "code") (ms := ms) (dec := NumberOrString.dec) (enc := NumberOrString.enc) (o := x.code) (n := Option.map _root_.id) 2 (by subst hms; simp [lookupLast_append, lookupLast_fld, lookupLast_skipNone, lookupLast_skipIf]) rfl (decOpt_canon (n := _root_.id) NumberOrString.canon_enc_ne_null NumberOrString.dec_enc)
    simpa using this
  have h3 : (Src.map (canonMembers ms [])).opt 3 "codeDescription" CodeDescription.dec = some x.codeDescription := by
    have := opt_canon_skip (k := "codeDescription") (ms := ms) (dec := CodeDescription.dec) (enc := CodeDescription.enc) (o := x.codeDescription) (n := Option.map _root_.id) 3 (by subst hms; simp [lookupLast_append, lookupLast_fld, lookupLast_skipNone, lookupLast_skipIf]) rfl (decOpt_canon (n := _root_.id) (fun _ => canon_obj_ne_null _) CodeDescription.dec_enc)
    simpa using this
  have h4 : (Src.map (canonMembers ms [])).opt 4 "source" decStr = some x.source := by
    have := opt_canon_skip (k := "source") (ms := ms) (dec := decStr) (enc := Json.str) (o := x.source) (n := Option.map _root_.id) 4 (by subst hms; simp [lookupLast_append, lookupLast_fld, lookupLast_skipNone, lookupLast_skipIf]) rfl (decOpt_canon (n := _root_.id) (by simp) dec_str)
    simpa using this
  have h5 : (Src.map (canonMembers ms [])).req 5 "message" decStr = some (x.message) :=
    req_canon (j := Json.str x.message) 5 (by subst hms; simp [lookupLast_append, lookupLast_fld, lookupLast_skipNone, lookupLast_skipIf]) (dec_str x.message)
  have h6 : (Src.map (canonMembers ms [])).opt 6 "relatedInformation" (decList DiagnosticRelatedInformation.dec) = some x.relatedInformation := by
    have := opt_canon_skip (k := "relatedInformation") (ms := ms) (dec := decList DiagnosticRelatedInformation.dec) (enc := encList DiagnosticRelatedInformation.enc) (o := x.relatedInformation) (n := Option.map _root_.id) 6 (by subst hms; simp [lookupLast_append, lookupLast_fld, lookupLast_skipNone, lookupLast_skipIf]) rfl (decOpt_canon (n := _root_.id) (by simp [encList]) (dec_list_id DiagnosticRelatedInformation.dec_enc))
    simpa using this
  have h7 : (Src.map (canonMembers ms [])).opt 7 "tags" (decList decI32) = some x.tags := by
    have := opt_canon_skip (k := "tags") (ms := ms) (dec := decList decI32) (enc := encList encI32) (o := x.tags) (n := Option.map _root_.id) 7 (by subst hms; simp [lookupLast_append, lookupLast_fld, lookupLast_skipNone, lookupLast_skipIf]) rfl (decOpt_canon (n := _root_.id) (by simp [encList]) (dec_list_id dec_i32))
    simpa using this
  have h8 : (Src.map (canonMembers ms [])).opt 8 "data" decValue = some (normData x.data) :=
    opt_canon_skip (enc := Value.json) (o := x.data) (n := normData) 8 (by subst hms; simp [lookupLast_append, lookupLast_fld, lookupLast_skipNone, lookupLast_skipIf]) rfl decOpt_value
  exact (bind_of_some rfl).trans ((bind_of_some h0).trans ((bind_of_some h1).trans ((bind_of_some h2).trans ((bind_of_some h3).trans ((bind_of_some h4).trans ((bind_of_some h5).trans ((bind_of_some h6).trans ((bind_of_some h7).trans (bind_of_some h8)))))))))

theorem dec_congr [Ext] {a b : Members} (h : SameOn fields a b) : dec (.obj a) = dec (.obj b) := by
  have h0 : List.lookup "range" a = List.lookup "range" b := h.lookup (by simp [fields])
  have h1 : List.lookup "severity" a = List.lookup "severity" b := h.lookup (by simp [fields])
  have h2 : List.lookup "code" a = List.lookup "code" b := h.lookup (by simp [fields])
  have h3 : List.lookup "codeDescription" a = List.lookup "codeDescription" b := h.lookup (by simp [fields])
  have h4 : List.lookup "source" a = List.lookup "source" b := h.lookup (by simp [fields])
  have h5 : List.lookup "message" a = List.lookup "message" b := h.lookup (by simp [fields])
  have h6 : List.lookup "relatedInformation" a = List.lookup "relatedInformation" b := h.lookup (by simp [fields])
  have h7 : List.lookup "tags" a = List.lookup "tags" b := h.lookup (by simp [fields])
  have h8 : List.lookup "data" a = List.lookup "data" b := h.lookup (by simp [fields])
  simp only [dec, structSrc, h.dup]
  split
  · rfl
  · simp only [Option.bind_eq_bind, Option.bind_some, Src.req, Src.opt, Src.dflt, Src.get, h0, h1, h2, h3, h4, h5, h6, h7, h8]

theorem dec_missing_range [Ext] {ms : Members} (h : List.lookup "range" ms = none) :
    dec (.obj ms) = none := by
  simp only [dec, structSrc]
  split
  · rfl
  · simp [Src.req, Src.get, h]

theorem dec_absent_severity [Ext] {ms : Members} (h : List.lookup "severity" ms = none) :
    dec (.obj ms) = dec (.obj (("severity", .null) :: ms)) := by
  simp only [dec, structSrc, dupKnown_cons fields _ _ h]
  split
  · rfl
  · simp [Src.req, Src.opt, Src.dflt, Src.get, lookup_cons', h, decOpt]

theorem dec_absent_code [Ext] {ms : Members} (h : List.lookup "code" ms = none) :
    dec (.obj ms) = dec (.obj (("code", .null) :: ms)) := by
  simp only [dec, structSrc, dupKnown_cons fields _ _ h]
  split
  · rfl
  · simp [Src.req, Src.opt, Src.dflt, Src.get, lookup_cons', h, decOpt]

theorem dec_absent_codeDescription [Ext] {ms : Members} (h : List.lookup "codeDescription" ms = none) :
    dec (.obj ms) = dec (.obj (("codeDescription", .null) :: ms)) := by
  simp only [dec, structSrc, dupKnown_cons fields _ _ h]
  split
  · rfl
  · simp [Src.req, Src.opt, Src.dflt, Src.get, lookup_cons', h, decOpt]

theorem dec_absent_source [Ext] {ms : Members} (h : List.lookup "source" ms = none) :
    dec (.obj ms) = dec (.obj (("source", .null) :: ms)) := by
  simp only [dec, structSrc, dupKnown_cons fields _ _ h]
  split
  · rfl
  · simp [Src.req, Src.opt, Src.dflt, Src.get, lookup_cons', h, decOpt]

theorem dec_missing_message [Ext] {ms : Members} (h : List.lookup "message" ms = none) :
    dec (.obj ms) = none := by
  simp only [dec, structSrc]
  split
  · rfl
  · simp [Src.req, Src.get, h]

theorem dec_absent_relatedInformation [Ext] {ms : Members} (h : List.lookup "relatedInformation" ms = none) :
    dec (.obj ms) = dec (.obj (("relatedInformation", .null) :: ms)) := by
  simp only [dec, structSrc, dupKnown_cons fields _ _ h]
  split
  · rfl
  · simp [Src.req, Src.opt, Src.dflt, Src.get, lookup_cons', h, decOpt]

theorem dec_absent_tags [Ext] {ms : Members} (h : List.lookup "tags" ms = none) :
    dec (.obj ms) = dec (.obj (("tags", .null) :: ms)) := by
  simp only [dec, structSrc, dupKnown_cons fields _ _ h]
  split
  · rfl
  · simp [Src.req, Src.opt, Src.dflt, Src.get, lookup_cons', h, decOpt]

theorem dec_absent_data [Ext] {ms : Members} (h : List.lookup "data" ms = none) :
    dec (.obj ms) = dec (.obj (("data", .null) :: ms)) := by
  simp only [dec, structSrc, dupKnown_cons fields _ _ h]
  split
  · rfl
  · simp [Src.req, Src.opt, Src.dflt, Src.get, lookup_cons', h, decOpt]

end Diagnostic

/-! ### PublishDiagnostics -/

/-- bsp-types/src/publish_diagnostics.rs:6-27. -/
structure PublishDiagnostics [Ext] where
  textDocument : TextDocumentIdentifier
  buildTarget : BuildTargetIdentifier
  originId : Option String
  diagnostics : List Diagnostic
  reset : Bool

namespace PublishDiagnostics

/-- Wire names of the fields, in declaration order. bsp-types/src/publish_diagnostics.rs:6-27. -/
def fields : List String := ["textDocument", "buildTarget", "originId", "diagnostics", "reset"]

/-- Derived `Serialize`. bsp-types/src/publish_diagnostics.rs:6-27. -/
def enc [Ext] (x : PublishDiagnostics) : Json :=
  .obj (fld "textDocument" (TextDocumentIdentifier.enc x.textDocument)
    ++ fld "buildTarget" (BuildTargetIdentifier.enc x.buildTarget)
    ++ fld "originId" (encOpt Json.str x.originId)
    ++ fld "diagnostics" (encList Diagnostic.enc x.diagnostics)
    ++ fld "reset" (Json.bool x.reset))

/-- Derived `Deserialize`. bsp-types/src/publish_diagnostics.rs:6-27. -/
def dec [Ext] (j : Json) : Option PublishDiagnostics := do
  let s ← structSrc fields j
  let textDocument ← s.req 0 "textDocument" TextDocumentIdentifier.dec
  let buildTarget ← s.req 1 "buildTarget" BuildTargetIdentifier.dec
  let originId ← s.opt 2 "originId" decStr
  let diagnostics ← s.req 3 "diagnostics" (decList Diagnostic.dec)
  let reset ← s.req 4 "reset" decBool
  return { textDocument, buildTarget, originId, diagnostics, reset }

/-- What is left of a value after the wire. bsp-types/src/publish_diagnostics.rs:6-27. -/
def norm [Ext] (x : PublishDiagnostics) : PublishDiagnostics :=
  { x with diagnostics := x.diagnostics.map Diagnostic.norm }

theorem dec_enc [LawfulExt] (x : PublishDiagnostics) : dec (canon (enc x)) = some x.norm := by
  simp only [dec, enc, structSrc_canon_obj]
  generalize hms : (fld "textDocument" (TextDocumentIdentifier.enc x.textDocument) ++ fld "buildTarget" (BuildTargetIdentifier.enc x.buildTarget) ++ fld "originId" (encOpt Json.str x.originId) ++ fld "diagnostics" (encList Diagnostic.enc x.diagnostics) ++ fld "reset" (Json.bool x.reset) : Members) = ms
  have h0 : (Src.map (canonMembers ms [])).req 0 "textDocument" TextDocumentIdentifier.dec = some (x.textDocument) :=
    req_canon (j := TextDocumentIdentifier.enc x.textDocument) 0 (by subst hms; simp [lookupLast_append, lookupLast_fld, lookupLast_skipNone, lookupLast_skipIf]) (TextDocumentIdentifier.dec_enc x.textDocument)
  have h1 : (Src.map (canonMembers ms [])).req 1 "buildTarget" BuildTargetIdentifier.dec = some (x.buildTarget) :=
    req_canon (j := BuildTargetIdentifier.enc x.buildTarget) 1 (by subst hms; simp [lookupLast_append, lookupLast_fld, lookupLast_skipNone, lookupLast_skipIf]) (BuildTargetIdentifier.dec_enc x.buildTarget)
  have h2 : (Src.map (canonMembers ms [])).opt 2 "originId" decStr = some x.originId := by
    have := opt_canon_keep (k := "originId") (ms := ms) (dec := decStr) (enc := Json.str) (o := x.originId) (n := Option.map _root_.id) 2 (by subst hms; simp [lookupLast_append, lookupLast_fld, lookupLast_skipNone, lookupLast_skipIf]) rfl (decOpt_canon (n := _root_.id) (by simp) dec_str)
    simpa using this
  have h3 : (Src.map (canonMembers ms [])).req 3 "diagnostics" (decList Diagnostic.dec) = some (x.diagnostics.map Diagnostic.norm) :=
    req_canon (j := encList Diagnostic.enc x.diagnostics) 3 (by subst hms; simp [lookupLast_append, lookupLast_fld, lookupLast_skipNone, lookupLast_skipIf]) (dec_list Diagnostic.dec_enc x.diagnostics)
  have h4 : (Src.map (canonMembers ms [])).req 4 "reset" decBool = some (x.reset) :=
    req_canon (j := Json.bool x.reset) 4 (by subst hms; simp [lookupLast_append, lookupLast_fld, lookupLast_skipNone, lookupLast_skipIf]) (dec_bool x.reset)
  exact (bind_of_some rfl).trans ((bind_of_some h0).trans ((bind_of_some h1).trans ((bind_of_some h2).trans ((bind_of_some h3).trans (bind_of_some h4)))))

theorem dec_congr [Ext] {a b : Members} (h : SameOn fields a b) : dec (.obj a) = dec (.obj b) := by
  have h0 : List.lookup "textDocument" a = List.lookup "textDocument" b := h.lookup (by simp [fields])
  have h1 : List.lookup "buildTarget" a = List.lookup "buildTarget" b := h.lookup (by simp [fields])
  have h2 : List.lookup "originId" a = List.lookup "originId" b := h.lookup (by simp [fields])
  have h3 : List.lookup "diagnostics" a = List.lookup "diagnostics" b := h.lookup (by simp [fields])
  have h4 : List.lookup "reset" a = List.lookup "reset" b := h.lookup (by simp [fields])
  simp only [dec, structSrc, h.dup]
  split
  · rfl
  · simp only [Option.bind_eq_bind, Option.bind_some, Src.req, Src.opt, Src.dflt, Src.get, h0, h1, h2, h3, h4]

theorem dec_missing_textDocument [Ext] {ms : Members} (h : List.lookup "textDocument" ms = none) :
    dec (.obj ms) = none := by
  simp only [dec, structSrc]
  split
  · rfl
  · simp [Src.req, Src.get, h]

theorem dec_missing_buildTarget [Ext] {ms : Members} (h : List.lookup "buildTarget" ms = none) :
    dec (.obj ms) = none := by
  simp only [dec, structSrc]
  split
  · rfl
  · simp [Src.req, Src.get, h]

theorem dec_absent_originId [Ext] {ms : Members} (h : List.lookup "originId" ms = none) :
    dec (.obj ms) = dec (.obj (("originId", .null) :: ms)) := by
  simp only [dec, structSrc, dupKnown_cons fields _ _ h]
  split
  · rfl
  · simp [Src.req, Src.opt, Src.dflt, Src.get, lookup_cons', h, decOpt]

theorem dec_missing_diagnostics [Ext] {ms : Members} (h : List.lookup "diagnostics" ms = none) :
    dec (.obj ms) = none := by
  simp only [dec, structSrc]
  split
  · rfl
  · simp [Src.req, Src.get, h]

theorem dec_missing_reset [Ext] {ms : Members} (h : List.lookup "reset" ms = none) :
    dec (.obj ms) = none := by
  simp only [dec, structSrc]
  split
  · rfl
  · simp [Src.req, Src.get, h]

end PublishDiagnostics

/-! ### TaskStart -/

/-- bsp-types/src/task/start.rs:6-30. -/
structure TaskStart where
  taskId : TaskId
  eventTime : Option UInt32
  message : String
  dataKind : TaskDataKind
  data : Value

namespace TaskStart

/-- Wire names of the fields, in declaration order. bsp-types/src/task/start.rs:6-30. -/
def fields : List String := ["taskId", "eventTime", "message", "dataKind", "data"]

/-- Derived `Serialize`. bsp-types/src/task/start.rs:6-30. -/
def enc (x : TaskStart) : Json :=
  .obj (fld "taskId" (TaskId.enc x.taskId)
    ++ skipNone "eventTime" encU32 x.eventTime
    ++ skipIf (x.message == "") "message" (Json.str x.message)
    ++ skipIf x.dataKind.isNone "dataKind" x.dataKind.enc
    ++ skipIf x.data.isNull "data" x.data.json)

/-- Derived `Deserialize` with struct-level `default`. bsp-types/src/task/start.rs:6-30. -/
def dec (j : Json) : Option TaskStart := do
  let s ← structSrc fields j
  let taskId ← s.dflt 0 "taskId" TaskId.default TaskId.dec
  let eventTime ← s.dflt 1 "eventTime" none (decOpt decU32)
  let message ← s.dflt 2 "message" "" decStr
  let dataKind ← s.dflt 3 "dataKind" TaskDataKind.none TaskDataKind.dec
  let data ← s.dflt 4 "data" Value.null decValue
  return { taskId, eventTime, message, dataKind, data }

/-- What is left of a value after the wire. bsp-types/src/task/start.rs:6-30. -/
def norm (x : TaskStart) : TaskStart :=
  { x with dataKind := x.dataKind.norm }

theorem dec_enc (x : TaskStart) : dec (canon (enc x)) = some x.norm := by
  simp only [dec, enc, structSrc_canon_obj]
  generalize hms : (fld "taskId" (TaskId.enc x.taskId) ++ skipNone "eventTime" encU32 x.eventTime ++ skipIf (x.message == "") "message" (Json.str x.message) ++ skipIf x.dataKind.isNone "dataKind" x.dataKind.enc ++ skipIf x.data.isNull "data" x.data.json : Members) = ms
  have h0 : (Src.map (canonMembers ms [])).dflt 0 "taskId" TaskId.default TaskId.dec = some (x.taskId) := by
    refine dflt_canon 0 (o := some (TaskId.enc x.taskId)) (by subst hms; simp [lookupLast_append, lookupLast_fld, lookupLast_skipNone, lookupLast_skipIf]) (by simp) ?_
    intro j hj; cases hj; exact TaskId.dec_enc x.taskId
  have h1 : (Src.map (canonMembers ms [])).dflt 1 "eventTime" none (decOpt decU32) = some (x.eventTime) := by
    refine dflt_canon 1 (o := x.eventTime.map encU32) (by subst hms; simp [lookupLast_append, lookupLast_fld, lookupLast_skipNone, lookupLast_skipIf]) ?_ ?_
    · intro h; cases hx : x.eventTime with
      | none => rfl
      | some v => simp [hx] at h
    · intro j hj; cases hx : x.eventTime with
      | none => simp [hx] at hj
      | some v => rw [hx] at hj; cases hj; exact decOpt_canon (n := _root_.id) (by simp [encU32]) dec_u32 v
  have h2 : (Src.map (canonMembers ms [])).dflt 2 "message" "" decStr = some (x.message) := by
    refine dflt_canon 2 (o := if (x.message == "") then none else some (Json.str x.message)) (by subst hms; simp [lookupLast_append, lookupLast_fld, lookupLast_skipNone, lookupLast_skipIf]) ?_ ?_
    · intro h; simp at h; simp [h]
    · intro j hj; split at hj
      · cases hj
      · cases hj; exact dec_str x.message
  have h3 : (Src.map (canonMembers ms [])).dflt 3 "dataKind" TaskDataKind.none TaskDataKind.dec = some (x.dataKind.norm) := by
    refine dflt_canon 3 (o := if x.dataKind.isNone then none else some (TaskDataKind.enc x.dataKind)) (by subst hms; simp [lookupLast_append, lookupLast_fld, lookupLast_skipNone, lookupLast_skipIf]) ?_ ?_
    · intro h; simp at h; exact (TaskDataKind.norm_of_isNone h).symm
    · intro j hj; split at hj
      · cases hj
      · cases hj; exact TaskDataKind.dec_enc x.dataKind
  have h4 : (Src.map (canonMembers ms [])).dflt 4 "data" Value.null decValue = some (x.data) := by
    refine dflt_canon 4 (o := if x.data.isNull then none else some (Value.json x.data)) (by subst hms; simp [lookupLast_append, lookupLast_fld, lookupLast_skipNone, lookupLast_skipIf]) ?_ ?_
    · intro h; simp [Value.isNull_iff] at h; simp [h]
    · intro j hj; split at hj
      · cases hj
      · cases hj; exact dec_value x.data
  exact (bind_of_some rfl).trans ((bind_of_some h0).trans ((bind_of_some h1).trans ((bind_of_some h2).trans ((bind_of_some h3).trans (bind_of_some h4)))))

theorem dec_congr {a b : Members} (h : SameOn fields a b) : dec (.obj a) = dec (.obj b) := by
  have h0 : List.lookup "taskId" a = List.lookup "taskId" b := h.lookup (by simp [fields])
  have h1 : List.lookup "eventTime" a = List.lookup "eventTime" b := h.lookup (by simp [fields])
  have h2 : List.lookup "message" a = List.lookup "message" b := h.lookup (by simp [fields])
  have h3 : List.lookup "dataKind" a = List.lookup "dataKind" b := h.lookup (by simp [fields])
  have h4 : List.lookup "data" a = List.lookup "data" b := h.lookup (by simp [fields])
  simp only [dec, structSrc, h.dup]
  split
  · rfl
  · simp only [Option.bind_eq_bind, Option.bind_some, Src.req, Src.opt, Src.dflt, Src.get, h0, h1, h2, h3, h4]

theorem dec_absent_taskId {ms : Members} (h : List.lookup "taskId" ms = none) :
    dec (.obj ms) = dec (.obj (("taskId", .obj []) :: ms)) := by
  simp only [dec, structSrc, dupKnown_cons fields _ _ h]
  split
  · rfl
  · simp [Src.req, Src.opt, Src.dflt, Src.get, lookup_cons', h, TaskId.dec_default]

theorem dec_absent_eventTime {ms : Members} (h : List.lookup "eventTime" ms = none) :
    dec (.obj ms) = dec (.obj (("eventTime", .null) :: ms)) := by
  simp only [dec, structSrc, dupKnown_cons fields _ _ h]
  split
  · rfl
  · simp [Src.req, Src.opt, Src.dflt, Src.get, lookup_cons', h, decOpt]

theorem dec_absent_message {ms : Members} (h : List.lookup "message" ms = none) :
    dec (.obj ms) = dec (.obj (("message", .str "") :: ms)) := by
  simp only [dec, structSrc, dupKnown_cons fields _ _ h]
  split
  · rfl
  · simp [Src.req, Src.opt, Src.dflt, Src.get, lookup_cons', h, decStr]

theorem dec_absent_dataKind {ms : Members} (h : List.lookup "dataKind" ms = none) :
    dec (.obj ms) = dec (.obj (("dataKind", .null) :: ms)) := by
  simp only [dec, structSrc, dupKnown_cons fields _ _ h]
  split
  · rfl
  · simp [Src.req, Src.opt, Src.dflt, Src.get, lookup_cons', h, TaskDataKind.dec, decStr]

theorem dec_absent_data {ms : Members} (h : List.lookup "data" ms = none) :
    dec (.obj ms) = dec (.obj (("data", .null) :: ms)) := by
  simp only [dec, structSrc, dupKnown_cons fields _ _ h]
  split
  · rfl
  · simp [Src.req, Src.opt, Src.dflt, Src.get, lookup_cons', h, decValue]; rfl

end TaskStart

/-! ### TaskFinish -/

/-- bsp-types/src/task/finish.rs:7-34. -/
structure TaskFinish where
  taskId : TaskId
  eventTime : Option UInt32
  message : String
  status : TaskStatus
  dataKind : TaskDataKind
  data : Value

namespace TaskFinish

/-- Wire names of the fields, in declaration order. bsp-types/src/task/finish.rs:7-34. -/
def fields : List String := ["taskId", "eventTime", "message", "status", "dataKind", "data"]

/-- Derived `Serialize`. bsp-types/src/task/finish.rs:7-34. -/
def enc (x : TaskFinish) : Json :=
  .obj (fld "taskId" (TaskId.enc x.taskId)
    ++ skipNone "eventTime" encU32 x.eventTime
    ++ skipIf (x.message == "") "message" (Json.str x.message)
    ++ fld "status" (TaskStatus.enc x.status)
    ++ skipIf x.dataKind.isNone "dataKind" x.dataKind.enc
    ++ skipIf x.data.isNull "data" x.data.json)

/-- Derived `Deserialize` with struct-level `default`. bsp-types/src/task/finish.rs:7-34. -/
def dec (j : Json) : Option TaskFinish := do
  let s ← structSrc fields j
  let taskId ← s.dflt 0 "taskId" TaskId.default TaskId.dec
  let eventTime ← s.dflt 1 "eventTime" none (decOpt decU32)
  let message ← s.dflt 2 "message" "" decStr
  let status ← s.dflt 3 "status" TaskStatus.ok TaskStatus.dec
  let dataKind ← s.dflt 4 "dataKind" TaskDataKind.none TaskDataKind.dec
  let data ← s.dflt 5 "data" Value.null decValue
  return { taskId, eventTime, message, status, dataKind, data }

/-- What is left of a value after the wire. bsp-types/src/task/finish.rs:7-34. -/
def norm (x : TaskFinish) : TaskFinish :=
  { x with dataKind := x.dataKind.norm }

theorem dec_enc (x : TaskFinish) : dec (canon (enc x)) = some x.norm := by
  simp only [dec, enc, structSrc_canon_obj]
  generalize hms : (fld "taskId" (TaskId.enc x.taskId) ++ skipNone "eventTime" encU32 x.eventTime ++ skipIf (x.message == "") "message" (Json.str x.message) ++ fld "status" (TaskStatus.enc x.status) ++ skipIf x.dataKind.isNone "dataKind" x.dataKind.enc ++ skipIf x.data.isNull "data" x.data.json : Members) = ms
  have h0 : (Src.map (canonMembers ms [])).dflt 0 "taskId" TaskId.default TaskId.dec = some (x.taskId) := by
    refine dflt_canon 0 (o := some (TaskId.enc x.taskId)) (by subst hms; simp [lookupLast_append, lookupLast_fld, lookupLast_skipNone, lookupLast_skipIf]) (by simp) ?_
    intro j hj; cases hj; exact TaskId.dec_enc x.taskId
  have h1 : (Src.map (canonMembers ms [])).dflt 1 "eventTime" none (decOpt decU32) = some (x.eventTime) := by
    refine dflt_canon 1 (o := x.eventTime.map encU32) (by subst hms; simp [lookupLast_append, lookupLast_fld, lookupLast_skipNone, lookupLast_skipIf]) ?_ ?_
    · intro h; cases hx : x.eventTime with
      | none => rfl
      | some v => simp [hx] at h
    · intro j hj; cases hx : x.eventTime with
      | none => simp [hx] at hj
      | some v => rw [hx] at hj; cases hj; exact decOpt_canon (n := _root_.id) (by simp [encU32]) dec_u32 v
  have h2 : (Src.map (canonMembers ms [])).dflt 2 "message" "" decStr = some (x.message) := by
    refine dflt_canon 2 (o := if (x.message == "") then none else some (Json.str x.message)) (by subst hms; simp [lookupLast_append, lookupLast_fld, lookupLast_skipNone, lookupLast_skipIf]) ?_ ?_
    · intro h; simp at h; simp [h]
    · intro j hj; split at hj
      · cases hj
      · cases hj; exact dec_str x.message
  have h3 : (Src.map (canonMembers ms [])).dflt 3 "status" TaskStatus.ok TaskStatus.dec = some (x.status) := by
    refine dflt_canon 3 (o := some (TaskStatus.enc x.status)) (by subst hms; simp [lookupLast_append, lookupLast_fld, lookupLast_skipNone, lookupLast_skipIf]) (by simp) ?_
    intro j hj; cases hj; exact TaskStatus.dec_enc x.status
  have h4 : (Src.map (canonMembers ms [])).dflt 4 "dataKind" TaskDataKind.none TaskDataKind.dec = some (x.dataKind.norm) := by
    refine dflt_canon 4 (o := if x.dataKind.isNone then none else some (TaskDataKind.enc x.dataKind)) (by subst hms; simp [lookupLast_append, lookupLast_fld, lookupLast_skipNone, lookupLast_skipIf]) ?_ ?_
    · intro h; simp at h; exact (TaskDataKind.norm_of_isNone h).symm
    · intro j hj; split at hj
      · cases hj
      · cases hj; exact TaskDataKind.dec_enc x.dataKind
  have h5 : (Src.map (canonMembers ms [])).dflt 5 "data" Value.null decValue = some (x.data) := by
    refine dflt_canon 5 (o := if x.data.isNull then none else some (Value.json x.data)) (by subst hms; simp [lookupLast_append, lookupLast_fld, lookupLast_skipNone, lookupLast_skipIf]) ?_ ?_
    · intro h; simp [Value.isNull_iff] at h; simp [h]
    · intro j hj; split at hj
      · cases hj
      · cases hj; exact dec_value x.data
  exact (bind_of_some rfl).trans ((bind_of_some h0).trans ((bind_of_some h1).trans ((bind_of_some h2).trans ((bind_of_some h3).trans ((bind_of_some h4).trans (bind_of_some h5))))))

theorem dec_congr {a b : Members} (h : SameOn fields a b) : dec (.obj a) = dec (.obj b) := by
  have h0 : List.lookup "taskId" a = List.lookup "taskId" b := h.lookup (by simp [fields])
  have h1 : List.lookup "eventTime" a = List.lookup "eventTime" b := h.lookup (by simp [fields])
  have h2 : List.lookup "message" a = List.lookup "message" b := h.lookup (by simp [fields])
  have h3 : List.lookup "status" a = List.lookup "status" b := h.lookup (by simp [fields])
  have h4 : List.lookup "dataKind" a = List.lookup "dataKind" b := h.lookup (by simp [fields])
  have h5 : List.lookup "data" a = List.lookup "data" b := h.lookup (by simp [fields])
  simp only [dec, structSrc, h.dup]
  split
  · rfl
  · simp only [Option.bind_eq_bind, Option.bind_some, Src.req, Src.opt, Src.dflt, Src.get, h0, h1, h2, h3, h4, h5]

theorem dec_absent_taskId {ms : Members} (h : List.lookup "taskId" ms = none) :
    dec (.obj ms) = dec (.obj (("taskId", .obj []) :: ms)) := by
  simp only [dec, structSrc, dupKnown_cons fields _ _ h]
  split
  · rfl
  · simp [Src.req, Src.opt, Src.dflt, Src.get, lookup_cons', h, TaskId.dec_default]

theorem dec_absent_eventTime {ms : Members} (h : List.lookup "eventTime" ms = none) :
    dec (.obj ms) = dec (.obj (("eventTime", .null) :: ms)) := by
  simp only [dec, structSrc, dupKnown_cons fields _ _ h]
  split
  · rfl
  · simp [Src.req, Src.opt, Src.dflt, Src.get, lookup_cons', h, decOpt]

theorem dec_absent_message {ms : Members} (h : List.lookup "message" ms = none) :
    dec (.obj ms) = dec (.obj (("message", .str "") :: ms)) := by
  simp only [dec, structSrc, dupKnown_cons fields _ _ h]
  split
  · rfl
  · simp [Src.req, Src.opt, Src.dflt, Src.get, lookup_cons', h, decStr]

theorem dec_absent_status {ms : Members} (h : List.lookup "status" ms = none) :
    dec (.obj ms) = dec (.obj (("status", .int 1) :: ms)) := by
  simp only [dec, structSrc, dupKnown_cons fields _ _ h]
  split
  · rfl
  · simp [Src.req, Src.opt, Src.dflt, Src.get, lookup_cons', h, TaskStatus.dec]

theorem dec_absent_dataKind {ms : Members} (h : List.lookup "dataKind" ms = none) :
    dec (.obj ms) = dec (.obj (("dataKind", .null) :: ms)) := by
  simp only [dec, structSrc, dupKnown_cons fields _ _ h]
  split
  · rfl
  · simp [Src.req, Src.opt, Src.dflt, Src.get, lookup_cons', h, TaskDataKind.dec, decStr]

theorem dec_absent_data {ms : Members} (h : List.lookup "data" ms = none) :
    dec (.obj ms) = dec (.obj (("data", .null) :: ms)) := by
  simp only [dec, structSrc, dupKnown_cons fields _ _ h]
  split
  · rfl
  · simp [Src.req, Src.opt, Src.dflt, Src.get, lookup_cons', h, decValue]; rfl

end TaskFinish

/-! ### TaskProgress -/

/-- bsp-types/src/task/progress.rs:7-41. -/
structure TaskProgress where
  taskId : TaskId
  eventTime : Option UInt32
  message : String
  total : Option UInt32
  progress : Option UInt32
  unit : String
  dataKind : TaskDataKind
  data : Value

namespace TaskProgress

/-- Wire names of the fields, in declaration order. bsp-types/src/task/progress.rs:7-41. -/
def fields : List String := ["taskId", "eventTime", "message", "total", "progress", "unit", "dataKind", "data"]

/-- Derived `Serialize`. bsp-types/src/task/progress.rs:7-41. -/
def enc (x : TaskProgress) : Json :=
  .obj (fld "taskId" (TaskId.enc x.taskId)
    ++ skipNone "eventTime" encU32 x.eventTime
    ++ skipIf (x.message == "") "message" (Json.str x.message)
    ++ fld "total" (encOpt encU32 x.total)
    ++ fld "progress" (encOpt encU32 x.progress)
    ++ skipIf (x.unit == "") "unit" (Json.str x.unit)
    ++ skipIf x.dataKind.isNone "dataKind" x.dataKind.enc
    ++ skipIf x.data.isNull "data" x.data.json)

/-- Derived `Deserialize` with struct-level `default`. bsp-types/src/task/progress.rs:7-41. -/
def dec (j : Json) : Option TaskProgress := do
  let s ← structSrc fields j
  let taskId ← s.dflt 0 "taskId" TaskId.default TaskId.dec
  let eventTime ← s.dflt 1 "eventTime" none (decOpt decU32)
  let message ← s.dflt 2 "message" "" decStr
  let total ← s.dflt 3 "total" none (decOpt decU32)
  let progress ← s.dflt 4 "progress" none (decOpt decU32)
  let unit ← s.dflt 5 "unit" "" decStr
  let dataKind ← s.dflt 6 "dataKind" TaskDataKind.none TaskDataKind.dec
  let data ← s.dflt 7 "data" Value.null decValue
  return { taskId, eventTime, message, total, progress, unit, dataKind, data }

/-- What is left of a value after the wire. bsp-types/src/task/progress.rs:7-41. -/
def norm (x : TaskProgress) : TaskProgress :=
  { x with dataKind := x.dataKind.norm }

theorem dec_enc (x : TaskProgress) : dec (canon (enc x)) = some x.norm := by
  simp only [dec, enc, structSrc_canon_obj]
  generalize hms : (fld "taskId" (TaskId.enc x.taskId) ++ skipNone "eventTime" encU32 x.eventTime ++ skipIf (x.message == "") "message" (Json.str x.message) ++ fld "total" (encOpt encU32 x.total) ++ fld "progress" (encOpt encU32 x.progress) ++ skipIf (x.unit == "") "unit" (Json.str x.unit) ++ skipIf x.dataKind.isNone "dataKind" x.dataKind.enc ++ skipIf x.data.isNull "data" x.data.json : Members) = ms
  have h0 : (Src.map (canonMembers ms [])).dflt 0 "taskId" TaskId.default TaskId.dec = some (x.taskId) := by
    refine dflt_canon 0 (o := some (TaskId.enc x.taskId)) (by subst hms; simp [lookupLast_append, lookupLast_fld, lookupLast_skipNone, lookupLast_skipIf]) (by simp) ?_
    intro j hj; cases hj; exact TaskId.dec_enc x.taskId
  have h1 : (Src.map (canonMembers ms [])).dflt 1 "eventTime" none (decOpt decU32) = some (x.eventTime) := by
    refine dflt_canon 1 (o := x.eventTime.map encU32) (by subst hms; simp [lookupLast_append, lookupLast_fld, lookupLast_skipNone, lookupLast_skipIf]) ?_ ?_
    · intro h; cases hx : x.eventTime with
      | none => rfl
      | some v => simp [hx] at h
    · intro j hj; cases hx : x.eventTime with
      | none => simp [hx] at hj
      | some v => rw [hx] at hj; cases hj; exact decOpt_canon (n := _root_.id) (by simp [encU32]) dec_u32 v
  have h2 : (Src.map (canonMembers ms [])).dflt 2 "message" "" decStr = some (x.message) := by
    refine dflt_canon 2 (o := if (x.message == "") then none else some (Json.str x.message)) (by subst hms; simp [lookupLast_append, lookupLast_fld, lookupLast_skipNone, lookupLast_skipIf]) ?_ ?_
    · intro h; simp at h; simp [h]
    · intro j hj; split at hj
      · cases hj
      · cases hj; exact dec_str x.message
  have h3 : (Src.map (canonMembers ms [])).dflt 3 "total" none (decOpt decU32) = some (x.total) := by
    refine dflt_canon 3 (o := some (encOpt encU32 x.total)) (by subst hms; simp [lookupLast_append, lookupLast_fld, lookupLast_skipNone, lookupLast_skipIf]) (by simp) ?_
    intro j hj; cases hj; cases hx : x.total with
      | none => simp [encOpt, decOpt]
      | some v => exact decOpt_canon (n := _root_.id) (by simp [encU32]) dec_u32 v
  have h4 : (Src.map (canonMembers ms [])).dflt 4 "progress" none (decOpt decU32) = some (x.progress) := by
    refine dflt_canon 4 (o := some (encOpt encU32 x.progress)) (by subst hms; simp [lookupLast_append, lookupLast_fld, lookupLast_skipNone, lookupLast_skipIf]) (by simp) ?_
    intro j hj; cases hj; cases hx : x.progress with
      | none => simp [encOpt, decOpt]
      | some v => exact decOpt_canon (n := _root_.id) (by simp [encU32]) dec_u32 v
  have h5 : (Src.map (canonMembers ms [])).dflt 5 "unit" "" decStr = some (x.unit) := by
    refine dflt_canon 5 (o := if (x.unit == "") then none else some (Json.str x.unit)) (by subst hms; simp [lookupLast_append, lookupLast_fld, lookupLast_skipNone, lookupLast_skipIf]) ?_ ?_
    · intro h; simp at h; simp [h]
    · intro j hj; split at hj
      · cases hj
      · cases hj; exact dec_str x.unit
  have h6 : (Src.map (canonMembers ms [])).dflt 6 "dataKind" TaskDataKind.none TaskDataKind.dec = some (x.dataKind.norm) := by
    refine dflt_canon 6 (o := if x.dataKind.isNone then none else some (TaskDataKind.enc x.dataKind)) (by subst hms; simp [lookupLast_append, lookupLast_fld, lookupLast_skipNone, lookupLast_skipIf]) ?_ ?_
    · intro h; simp at h; exact (TaskDataKind.norm_of_isNone h).symm
    · intro j hj; split at hj
      · cases hj
      · cases hj; exact TaskDataKind.dec_enc x.dataKind
  have h7 : (Src.map (canonMembers ms [])).dflt 7 "data" Value.null decValue = some (x.data) := by
    refine dflt_canon 7 (o := if x.data.isNull then none else some (Value.json x.data)) (by subst hms; simp [lookupLast_append, lookupLast_fld, lookupLast_skipNone, lookupLast_skipIf]) ?_ ?_
    · intro h; simp [Value.isNull_iff] at h; simp [h]
    · intro j hj; split at hj
      · cases hj
      · cases hj; exact dec_value x.data
  exact (bind_of_some rfl).trans ((bind_of_some h0).trans ((bind_of_some h1).trans ((bind_of_some h2).trans ((bind_of_some h3).trans ((bind_of_some h4).trans ((bind_of_some h5).trans ((bind_of_some h6).trans (bind_of_some h7))))))))

theorem dec_congr {a b : Members} (h : SameOn fields a b) : dec (.obj a) = dec (.obj b) := by
  have h0 : List.lookup "taskId" a = List.lookup "taskId" b := h.lookup (by simp [fields])
  have h1 : List.lookup "eventTime" a = List.lookup "eventTime" b := h.lookup (by simp [fields])
  have h2 : List.lookup "message" a = List.lookup "message" b := h.lookup (by simp [fields])
  have h3 : List.lookup "total" a = List.lookup "total" b := h.lookup (by simp [fields])
  have h4 : List.lookup "progress" a = List.lookup "progress" b := h.lookup (by simp [fields])
  have h5 : List.lookup "unit" a = List.lookup "unit" b := h.lookup (by simp [fields])
  have h6 : List.lookup "dataKind" a = List.lookup "dataKind" b := h.lookup (by simp [fields])
  have h7 : List.lookup "data" a = List.lookup "data" b := h.lookup (by simp [fields])
  simp only [dec, structSrc, h.dup]
  split
  · rfl
  · simp only [Option.bind_eq_bind, Option.bind_some, Src.req, Src.opt, Src.dflt, Src.get, h0, h1, h2, h3, h4, h5, h6, h7]

theorem dec_absent_taskId {ms : Members} (h : List.lookup "taskId" ms = none) :
    dec (.obj ms) = dec (.obj (("taskId", .obj []) :: ms)) := by
  simp only [dec, structSrc, dupKnown_cons fields _ _ h]
  split
  · rfl
  · simp [Src.req, Src.opt, Src.dflt, Src.get, lookup_cons', h, TaskId.dec_default]

theorem dec_absent_eventTime {ms : Members} (h : List.lookup "eventTime" ms = none) :
    dec (.obj ms) = dec (.obj (("eventTime", .null) :: ms)) := by
  simp only [dec, structSrc, dupKnown_cons fields _ _ h]
  split
  · rfl
  · simp [Src.req, Src.opt, Src.dflt, Src.get, lookup_cons', h, decOpt]

theorem dec_absent_message {ms : Members} (h : List.lookup "message" ms = none) :
    dec (.obj ms) = dec (.obj (("message", .str "") :: ms)) := by
  simp only [dec, structSrc, dupKnown_cons fields _ _ h]
  split
  · rfl
  · simp [Src.req, Src.opt, Src.dflt, Src.get, lookup_cons', h, decStr]

theorem dec_absent_total {ms : Members} (h : List.lookup "total" ms = none) :
    dec (.obj ms) = dec (.obj (("total", .null) :: ms)) := by
  simp only [dec, structSrc, dupKnown_cons fields _ _ h]
  split
  · rfl
  · simp [Src.req, Src.opt, Src.dflt, Src.get, lookup_cons', h, decOpt]

theorem dec_absent_progress {ms : Members} (h : List.lookup "progress" ms = none) :
    dec (.obj ms) = dec (.obj (("progress", .null) :: ms)) := by
  simp only [dec, structSrc, dupKnown_cons fields _ _ h]
  split
  · rfl
  · simp [Src.req, Src.opt, Src.dflt, Src.get, lookup_cons', h, decOpt]

theorem dec_absent_unit {ms : Members} (h : List.lookup "unit" ms = none) :
    dec (.obj ms) = dec (.obj (("unit", .str "") :: ms)) := by
  simp only [dec, structSrc, dupKnown_cons fields _ _ h]
  split
  · rfl
  · simp [Src.req, Src.opt, Src.dflt, Src.get, lookup_cons', h, decStr]

theorem dec_absent_dataKind {ms : Members} (h : List.lookup "dataKind" ms = none) :
    dec (.obj ms) = dec (.obj (("dataKind", .null) :: ms)) := by
  simp only [dec, structSrc, dupKnown_cons fields _ _ h]
  split
  · rfl
  · simp [Src.req, Src.opt, Src.dflt, Src.get, lookup_cons', h, TaskDataKind.dec, decStr]

theorem dec_absent_data {ms : Members} (h : List.lookup "data" ms = none) :
    dec (.obj ms) = dec (.obj (("data", .null) :: ms)) := by
  simp only [dec, structSrc, dupKnown_cons fields _ _ h]
  split
  · rfl
  · simp [Src.req, Src.opt, Src.dflt, Src.get, lookup_cons', h, decValue]; rfl

end TaskProgress

/-! ### BuildTargetEvent -/

/-- bsp-types/src/bt_did_change.rs:16-26. -/
structure BuildTargetEvent [Ext] where
  target : BuildTargetIdentifier
  kind : Option BuildTargetEventKind
  data : Option Value

namespace BuildTargetEvent

/-- Wire names of the fields, in declaration order. bsp-types/src/bt_did_change.rs:16-26. -/
def fields : List String := ["target", "kind", "data"]

/-- Derived `Serialize`. bsp-types/src/bt_did_change.rs:16-26. -/
def enc [Ext] (x : BuildTargetEvent) : Json :=
  .obj (fld "target" (BuildTargetIdentifier.enc x.target)
    ++ skipNone "kind" BuildTargetEventKind.enc x.kind
    ++ skipNone "data" Value.json x.data)

/-- Derived `Deserialize`. bsp-types/src/bt_did_change.rs:16-26. -/
def dec [Ext] (j : Json) : Option BuildTargetEvent := do
  let s ← structSrc fields j
  let target ← s.req 0 "target" BuildTargetIdentifier.dec
  let kind ← s.opt 1 "kind" BuildTargetEventKind.dec
  let data ← s.opt 2 "data" decValue
  return { target, kind, data }

/-- What is left of a value after the wire. bsp-types/src/bt_did_change.rs:16-26. -/
def norm [Ext] (x : BuildTargetEvent) : BuildTargetEvent :=
  { x with data := normData x.data }

theorem dec_enc [LawfulExt] (x : BuildTargetEvent) : dec (canon (enc x)) = some x.norm := by
  simp only [dec, enc, structSrc_canon_obj]
  generalize hms : (fld "target" (BuildTargetIdentifier.enc x.target) ++ skipNone "kind" BuildTargetEventKind.enc x.kind ++ skipNone "data" Value.json x.data : Members) = ms
  have h0 : (Src.map (canonMembers ms [])).req 0 "target" BuildTargetIdentifier.dec = some (x.target) :=
    req_canon (j := BuildTargetIdentifier.enc x.target) 0 (by subst hms; simp [lookupLast_append, lookupLast_fld, lookupLast_skipNone, lookupLast_skipIf]) (BuildTargetIdentifier.dec_enc x.target)
  have h1 : (Src.map (canonMembers ms [])).opt 1 "kind" BuildTargetEventKind.dec = some x.kind := by
    have := opt_canon_skip (k := "kind") (ms := ms) (dec := BuildTargetEventKind.dec) (enc := BuildTargetEventKind.enc) (o := x.kind) (n := Option.map _root_.id) 1 (by subst hms; simp [lookupLast_append, lookupLast_fld, lookupLast_skipNone, lookupLast_skipIf]) rfl (decOpt_canon (n := _root_.id) (fun x => by simp [BuildTargetEventKind.enc]) BuildTargetEventKind.dec_enc)
    simpa using this
  have h2 : (Src.map (canonMembers ms [])).opt 2 "data" decValue = some (normData x.data) :=
    opt_canon_skip (enc := Value.json) (o := x.data) (n := normData) 2 (by subst hms; simp [lookupLast_append, lookupLast_fld, lookupLast_skipNone, lookupLast_skipIf]) rfl decOpt_value
  exact (bind_of_some rfl).trans ((bind_of_some h0).trans ((bind_of_some h1).trans (bind_of_some h2)))

theorem dec_congr [Ext] {a b : Members} (h : SameOn fields a b) : dec (.obj a) = dec (.obj b) := by
  have h0 : List.lookup "target" a = List.lookup "target" b := h.lookup (by simp [fields])
  have h1 : List.lookup "kind" a = List.lookup "kind" b := h.lookup (by simp [fields])
  have h2 : List.lookup "data" a = List.lookup "data" b := h.lookup (by simp [fields])
  simp only [dec, structSrc, h.dup]
  split
  · rfl
  · simp only [Option.bind_eq_bind, Option.bind_some, Src.req, Src.opt, Src.dflt, Src.get, h0, h1, h2]

theorem dec_missing_target [Ext] {ms : Members} (h : List.lookup "target" ms = none) :
    dec (.obj ms) = none := by
  simp only [dec, structSrc]
  split
  · rfl
  · simp [Src.req, Src.get, h]

theorem dec_absent_kind [Ext] {ms : Members} (h : List.lookup "kind" ms = none) :
    dec (.obj ms) = dec (.obj (("kind", .null) :: ms)) := by
  simp only [dec, structSrc, dupKnown_cons fields _ _ h]
  split
  · rfl
  · simp [Src.req, Src.opt, Src.dflt, Src.get, lookup_cons', h, decOpt]

theorem dec_absent_data [Ext] {ms : Members} (h : List.lookup "data" ms = none) :
    dec (.obj ms) = dec (.obj (("data", .null) :: ms)) := by
  simp only [dec, structSrc, dupKnown_cons fields _ _ h]
  split
  · rfl
  · simp [Src.req, Src.opt, Src.dflt, Src.get, lookup_cons', h, decOpt]

end BuildTargetEvent

/-! ### BuildTargetDidChange -/

/-- bsp-types/src/bt_did_change.rs:7-10. -/
structure BuildTargetDidChange [Ext] where
  changes : List BuildTargetEvent

namespace BuildTargetDidChange

/-- Wire names of the fields, in declaration order. bsp-types/src/bt_did_change.rs:7-10. -/
def fields : List String := ["changes"]

/-- Derived `Serialize`. bsp-types/src/bt_did_change.rs:7-10. -/
def enc [Ext] (x : BuildTargetDidChange) : Json :=
  .obj (fld "changes" (encList BuildTargetEvent.enc x.changes))

/-- Derived `Deserialize`. bsp-types/src/bt_did_change.rs:7-10. -/
def dec [Ext] (j : Json) : Option BuildTargetDidChange := do
  let s ← structSrc fields j
  let changes ← s.req 0 "changes" (decList BuildTargetEvent.dec)
  return { changes }

/-- What is left of a value after the wire. bsp-types/src/bt_did_change.rs:7-10. -/
def norm [Ext] (x : BuildTargetDidChange) : BuildTargetDidChange :=
  { x with changes := x.changes.map BuildTargetEvent.norm }

theorem dec_enc [LawfulExt] (x : BuildTargetDidChange) : dec (canon (enc x)) = some x.norm := by
  simp only [dec, enc, structSrc_canon_obj]
  generalize hms : (fld "changes" (encList BuildTargetEvent.enc x.changes) : Members) = ms
  have h0 : (Src.map (canonMembers ms [])).req 0 "changes" (decList BuildTargetEvent.dec) = some (x.changes.map BuildTargetEvent.norm) :=
    req_canon (j := encList BuildTargetEvent.enc x.changes) 0 (by subst hms; simp [lookupLast_append, lookupLast_fld, lookupLast_skipNone, lookupLast_skipIf]) (dec_list BuildTargetEvent.dec_enc x.changes)
  exact (bind_of_some rfl).trans (bind_of_some h0)

theorem dec_congr [Ext] {a b : Members} (h : SameOn fields a b) : dec (.obj a) = dec (.obj b) := by
  have h0 : List.lookup "changes" a = List.lookup "changes" b := h.lookup (by simp [fields])
  simp only [dec, structSrc, h.dup]
  split
  · rfl
  · simp only [Option.bind_eq_bind, Option.bind_some, Src.req, Src.opt, Src.dflt, Src.get, h0]

theorem dec_missing_changes [Ext] {ms : Members} (h : List.lookup "changes" ms = none) :
    dec (.obj ms) = none := by
  simp only [dec, structSrc]
  split
  · rfl
  · simp [Src.req, Src.get, h]

end BuildTargetDidChange

/-! ### CompileProvider -/

/-- bsp-types/src/providers.rs:3-7. -/
structure CompileProvider where
  languageIds : List String

namespace CompileProvider

/-- Wire names of the fields, in declaration order. bsp-types/src/providers.rs:3-7. -/
def fields : List String := ["languageIds"]

/-- Derived `Serialize`. bsp-types/src/providers.rs:3-7. -/
def enc (x : CompileProvider) : Json :=
  .obj (fld "languageIds" (encList Json.str x.languageIds))

/-- Derived `Deserialize`. bsp-types/src/providers.rs:3-7. -/
def dec (j : Json) : Option CompileProvider := do
  let s ← structSrc fields j
  let languageIds ← s.req 0 "languageIds" (decList decStr)
  return { languageIds }

theorem dec_enc (x : CompileProvider) : dec (canon (enc x)) = some x := by
  simp only [dec, enc, structSrc_canon_obj]
  generalize hms : (fld "languageIds" (encList Json.str x.languageIds) : Members) = ms
  have h0 : (Src.map (canonMembers ms [])).req 0 "languageIds" (decList decStr) = some (x.languageIds) :=
    req_canon (j := encList Json.str x.languageIds) 0 (by subst hms; simp [lookupLast_append, lookupLast_fld, lookupLast_skipNone, lookupLast_skipIf]) (dec_list_id dec_str x.languageIds)
  exact (bind_of_some rfl).trans (bind_of_some h0)

theorem dec_congr {a b : Members} (h : SameOn fields a b) : dec (.obj a) = dec (.obj b) := by
  have h0 : List.lookup "languageIds" a = List.lookup "languageIds" b := h.lookup (by simp [fields])
  simp only [dec, structSrc, h.dup]
  split
  · rfl
  · simp only [Option.bind_eq_bind, Option.bind_some, Src.req, Src.opt, Src.dflt, Src.get, h0]

theorem dec_missing_languageIds {ms : Members} (h : List.lookup "languageIds" ms = none) :
    dec (.obj ms) = none := by
  simp only [dec, structSrc]
  split
  · rfl
  · simp [Src.req, Src.get, h]

end CompileProvider

/-! ### TestProvider -/

/-- bsp-types/src/providers.rs:9-13. -/
structure TestProvider where
  languageIds : List String

namespace TestProvider

/-- Wire names of the fields, in declaration order. bsp-types/src/providers.rs:9-13. -/
def fields : List String := ["languageIds"]

/-- Derived `Serialize`. bsp-types/src/providers.rs:9-13. -/
def enc (x : TestProvider) : Json :=
  .obj (fld "languageIds" (encList Json.str x.languageIds))

/-- Derived `Deserialize`. bsp-types/src/providers.rs:9-13. -/
def dec (j : Json) : Option TestProvider := do
  let s ← structSrc fields j
  let languageIds ← s.req 0 "languageIds" (decList decStr)
  return { languageIds }

theorem dec_enc (x : TestProvider) : dec (canon (enc x)) = some x := by
  simp only [dec, enc, structSrc_canon_obj]
  generalize hms : (fld "languageIds" (encList Json.str x.languageIds) : Members) = ms
  have h0 : (Src.map (canonMembers ms [])).req 0 "languageIds" (decList decStr) = some (x.languageIds) :=
    req_canon (j := encList Json.str x.languageIds) 0 (by subst hms; simp [lookupLast_append, lookupLast_fld, lookupLast_skipNone, lookupLast_skipIf]) (dec_list_id dec_str x.languageIds)
  exact (bind_of_some rfl).trans (bind_of_some h0)

theorem dec_congr {a b : Members} (h : SameOn fields a b) : dec (.obj a) = dec (.obj b) := by
  have h0 : List.lookup "languageIds" a = List.lookup "languageIds" b := h.lookup (by simp [fields])
  simp only [dec, structSrc, h.dup]
  split
  · rfl
  · simp only [Option.bind_eq_bind, Option.bind_some, Src.req, Src.opt, Src.dflt, Src.get, h0]

theorem dec_missing_languageIds {ms : Members} (h : List.lookup "languageIds" ms = none) :
    dec (.obj ms) = none := by
  simp only [dec, structSrc]
  split
  · rfl
  · simp [Src.req, Src.get, h]

end TestProvider

/-! ### RunProvider -/

/-- bsp-types/src/providers.rs:15-19. -/
structure RunProvider where
  languageIds : List String

namespace RunProvider

/-- Wire names of the fields, in declaration order. bsp-types/src/providers.rs:15-19. -/
def fields : List String := ["languageIds"]

/-- Derived `Serialize`. bsp-types/src/providers.rs:15-19. -/
def enc (x : RunProvider) : Json :=
  .obj (fld "languageIds" (encList Json.str x.languageIds))

/-- Derived `Deserialize`. bsp-types/src/providers.rs:15-19. -/
def dec (j : Json) : Option RunProvider := do
  let s ← structSrc fields j
  let languageIds ← s.req 0 "languageIds" (decList decStr)
  return { languageIds }

theorem dec_enc (x : RunProvider) : dec (canon (enc x)) = some x := by
  simp only [dec, enc, structSrc_canon_obj]
  generalize hms : (fld "languageIds" (encList Json.str x.languageIds) : Members) = ms
  have h0 : (Src.map (canonMembers ms [])).req 0 "languageIds" (decList decStr) = some (x.languageIds) :=
    req_canon (j := encList Json.str x.languageIds) 0 (by subst hms; simp [lookupLast_append, lookupLast_fld, lookupLast_skipNone, lookupLast_skipIf]) (dec_list_id dec_str x.languageIds)
  exact (bind_of_some rfl).trans (bind_of_some h0)

theorem dec_congr {a b : Members} (h : SameOn fields a b) : dec (.obj a) = dec (.obj b) := by
  have h0 : List.lookup "languageIds" a = List.lookup "languageIds" b := h.lookup (by simp [fields])
  simp only [dec, structSrc, h.dup]
  split
  · rfl
  · simp only [Option.bind_eq_bind, Option.bind_some, Src.req, Src.opt, Src.dflt, Src.get, h0]

theorem dec_missing_languageIds {ms : Members} (h : List.lookup "languageIds" ms = none) :
    dec (.obj ms) = none := by
  simp only [dec, structSrc]
  split
  · rfl
  · simp [Src.req, Src.get, h]

end RunProvider

/-! ### DebugProvider -/

/-- bsp-types/src/providers.rs:21-25. -/
structure DebugProvider where
  languageIds : List String

namespace DebugProvider

/-- Wire names of the fields, in declaration order. bsp-types/src/providers.rs:21-25. -/
def fields : List String := ["languageIds"]

/-- Derived `Serialize`. bsp-types/src/providers.rs:21-25. -/
def enc (x : DebugProvider) : Json :=
  .obj (fld "languageIds" (encList Json.str x.languageIds))

/-- Derived `Deserialize`. bsp-types/src/providers.rs:21-25. -/
def dec (j : Json) : Option DebugProvider := do
  let s ← structSrc fields j
  let languageIds ← s.req 0 "languageIds" (decList decStr)
  return { languageIds }

theorem dec_enc (x : DebugProvider) : dec (canon (enc x)) = some x := by
  simp only [dec, enc, structSrc_canon_obj]
  generalize hms : (fld "languageIds" (encList Json.str x.languageIds) : Members) = ms
  have h0 : (Src.map (canonMembers ms [])).req 0 "languageIds" (decList decStr) = some (x.languageIds) :=
    req_canon (j := encList Json.str x.languageIds) 0 (by subst hms; simp [lookupLast_append, lookupLast_fld, lookupLast_skipNone, lookupLast_skipIf]) (dec_list_id dec_str x.languageIds)
  exact (bind_of_some rfl).trans (bind_of_some h0)

theorem dec_congr {a b : Members} (h : SameOn fields a b) : dec (.obj a) = dec (.obj b) := by
  have h0 : List.lookup "languageIds" a = List.lookup "languageIds" b := h.lookup (by simp [fields])
  simp only [dec, structSrc, h.dup]
  split
  · rfl
  · simp only [Option.bind_eq_bind, Option.bind_some, Src.req, Src.opt, Src.dflt, Src.get, h0]

theorem dec_missing_languageIds {ms : Members} (h : List.lookup "languageIds" ms = none) :
    dec (.obj ms) = none := by
  simp only [dec, structSrc]
  split
  · rfl
  · simp [Src.req, Src.get, h]

end DebugProvider

/-! ### ServerCapabilities -/

/-- bsp-types/src/server_capabilities.rs:5-57. -/
structure ServerCapabilities where
  compileProvider : Option CompileProvider
  testProvider : Option TestProvider
  runProvider : Option RunProvider
  debugProvider : Option DebugProvider
  inverseSourcesProvider : Option Bool
  dependencySourcesProvider : Option Bool
  dependencyModulesProvider : Option Bool
  resourcesProvider : Option Bool
  canReload : Option Bool
  buildTargetChangedProvider : Option Bool

namespace ServerCapabilities

/-- Wire names of the fields, in declaration order. bsp-types/src/server_capabilities.rs:5-57. -/
def fields : List String := ["compileProvider", "testProvider", "runProvider", "debugProvider", "inverseSourcesProvider", "dependencySourcesProvider", "dependencyModulesProvider", "resourcesProvider", "canReload", "buildTargetChangedProvider"]

/-- Derived `Serialize`. bsp-types/src/server_capabilities.rs:5-57. -/
def enc (x : ServerCapabilities) : Json :=
  .obj (skipNone "compileProvider" CompileProvider.enc x.compileProvider
    ++ skipNone "testProvider" TestProvider.enc x.testProvider
    ++ skipNone "runProvider" RunProvider.enc x.runProvider
    ++ skipNone "debugProvider" DebugProvider.enc x.debugProvider
    ++ skipNone "inverseSourcesProvider" Json.bool x.inverseSourcesProvider
    ++ skipNone "dependencySourcesProvider" Json.bool x.dependencySourcesProvider
    ++ skipNone "dependencyModulesProvider" Json.bool x.dependencyModulesProvider
    ++ skipNone "resourcesProvider" Json.bool x.resourcesProvider
    ++ skipNone "canReload" Json.bool x.canReload
    ++ skipNone "buildTargetChangedProvider" Json.bool x.buildTargetChangedProvider)

/-- Derived `Deserialize`. bsp-types/src/server_capabilities.rs:5-57. -/
def dec (j : Json) : Option ServerCapabilities := do
  let s ← structSrc fields j
  let compileProvider ← s.opt 0 "compileProvider" CompileProvider.dec
  let testProvider ← s.opt 1 "testProvider" TestProvider.dec
  let runProvider ← s.opt 2 "runProvider" RunProvider.dec
  let debugProvider ← s.opt 3 "debugProvider" DebugProvider.dec
  let inverseSourcesProvider ← s.opt 4 "inverseSourcesProvider" decBool
  let dependencySourcesProvider ← s.opt 5 "dependencySourcesProvider" decBool
  let dependencyModulesProvider ← s.opt 6 "dependencyModulesProvider" decBool
  let resourcesProvider ← s.opt 7 "resourcesProvider" decBool
  let canReload ← s.opt 8 "canReload" decBool
  let buildTargetChangedProvider ← s.opt 9 "buildTargetChangedProvider" decBool
  return { compileProvider, testProvider, runProvider, debugProvider, inverseSourcesProvider, dependencySourcesProvider, dependencyModulesProvider, resourcesProvider, canReload, buildTargetChangedProvider }

theorem dec_enc (x : ServerCapabilities) : dec (canon (enc x)) = some x := by
  simp only [dec, enc, structSrc_canon_obj]
  generalize hms : (skipNone "compileProvider" CompileProvider.enc x.compileProvider ++ skipNone "testProvider" TestProvider.enc x.testProvider ++ skipNone "runProvider" RunProvider.enc x.runProvider ++ skipNone "debugProvider" DebugProvider.enc x.debugProvider ++ skipNone "inverseSourcesProvider" Json.bool x.inverseSourcesProvider ++ skipNone "dependencySourcesProvider" Json.bool x.dependencySourcesProvider ++ skipNone "dependencyModulesProvider" Json.bool x.dependencyModulesProvider ++ skipNone "resourcesProvider" Json.bool x.resourcesProvider ++ skipNone "canReload" Json.bool x.canReload ++ skipNone "buildTargetChangedProvider" Json.bool x.buildTargetChangedProvider : Members) = ms
  have h0 : (Src.map (canonMembers ms [])).opt 0 "compileProvider" CompileProvider.dec = some x.compileProvider := by
    have := opt_canon_skip (k := "compileProvider") (ms := ms) (dec := CompileProvider.dec) (enc := CompileProvider.enc) (o := x.compileProvider) (n := Option.map _root_.id) 0 (by subst hms; simp [lookupLast_append, lookupLast_fld, lookupLast_skipNone, lookupLast_skipIf]) rfl (decOpt_canon (n := _root_.id) (fun _ => canon_obj_ne_null _) CompileProvider.dec_enc)
    simpa using this
  have h1 : (Src.map (canonMembers ms [])).opt 1 "testProvider" TestProvider.dec = some x.testProvider := by
    have := opt_canon_skip (k := "testProvider") (ms := ms) (dec := TestProvider.dec) (enc := TestProvider.enc) (o := x.testProvider) (n := Option.map _root_.id) 1 (by subst hms; simp [lookupLast_append, lookupLast_fld, lookupLast_skipNone, lookupLast_skipIf]) rfl (decOpt_canon (n := _root_.id) (fun _ => canon_obj_ne_null _) TestProvider.dec_enc)
    simpa using this
  have h2 : (Src.map (canonMembers ms [])).opt 2 "runProvider" RunProvider.dec = some x.runProvider := by
    have := opt_canon_skip (k := "runProvider") (ms := ms) (dec := RunProvider.dec) (enc := RunProvider.enc) (o := x.runProvider) (n := Option.map _root_.id) 2 (by subst hms; simp [lookupLast_append, lookupLast_fld, lookupLast_skipNone, lookupLast_skipIf]) rfl (decOpt_canon (n := _root_.id) (fun _ => canon_obj_ne_null _) RunProvider.dec_enc)
    simpa using this
  have h3 : (Src.map (canonMembers ms [])).opt 3 "debugProvider" DebugProvider.dec = some x.debugProvider := by
    have := opt_canon_skip (k := "debugProvider") (ms := ms) (dec := DebugProvider.dec) (enc := DebugProvider.enc) (o := x.debugProvider) (n := Option.map _root_.id) 3 (by subst hms; simp [lookupLast_append, lookupLast_fld, lookupLast_skipNone, lookupLast_skipIf]) rfl (decOpt_canon (n := _root_.id) (fun _ => canon_obj_ne_null _) DebugProvider.dec_enc)
    simpa using this
  have h4 : (Src.map (canonMembers ms [])).opt 4 "inverseSourcesProvider" decBool = some x.inverseSourcesProvider := by
    have := opt_canon_skip (k := "inverseSourcesProvider") (ms := ms) (dec := decBool) (enc := Json.bool) (o := x.inverseSourcesProvider) (n := Option.map _root_.id) 4 (by subst hms; simp [lookupLast_append, lookupLast_fld, lookupLast_skipNone, lookupLast_skipIf]) rfl (decOpt_canon (n := _root_.id) (by simp) dec_bool)
    simpa using this
  have h5 : (Src.map (canonMembers ms [])).opt 5 "dependencySourcesProvider" decBool = some x.dependencySourcesProvider := by
    have := opt_canon_skip (k := "dependencySourcesProvider") (ms := ms) (dec := decBool) (enc := Json.bool) (o := x.dependencySourcesProvider) (n := Option.map _root_.id) 5 (by subst hms; simp [lookupLast_append, lookupLast_fld, lookupLast_skipNone, lookupLast_skipIf]) rfl (decOpt_canon (n := _root_.id) (by simp) dec_bool)
    simpa using this
  have h6 : (Src.map (canonMembers ms [])).opt 6 "dependencyModulesProvider" decBool = some x.dependencyModulesProvider := by
    have := opt_canon_skip (k := "dependencyModulesProvider") (ms := ms) (dec := decBool) (enc := Json.bool) (o := x.dependencyModulesProvider) (n := Option.map _root_.id) 6 (by subst hms; simp [lookupLast_append, lookupLast_fld, lookupLast_skipNone, lookupLast_skipIf]) rfl (decOpt_canon (n := _root_.id) (by simp) dec_bool)
    simpa using this
  have h7 : (Src.map (canonMembers ms [])).opt 7 "resourcesProvider" decBool = some x.resourcesProvider := by
    have := opt_canon_skip (k := "resourcesProvider") (ms := ms) (dec := decBool) (enc := Json.bool) (o := x.resourcesProvider) (n := Option.map _root_.id) 7 (by subst hms; simp [lookupLast_append, lookupLast_fld, lookupLast_skipNone, lookupLast_skipIf]) rfl (decOpt_canon (n := _root_.id) (by simp) dec_bool)
    simpa using this
  have h8 : (Src.map (canonMembers ms [])).opt 8 "canReload" decBool = some x.canReload := by
    have := opt_canon_skip (k := "canReload") (ms := ms) (dec := decBool) (enc := Json.bool) (o := x.canReload) (n := Option.map _root_.id) 8 (by subst hms; simp [lookupLast_append, lookupLast_fld, lookupLast_skipNone, lookupLast_skipIf]) rfl (decOpt_canon (n := _root_.id) (by simp) dec_bool)
    simpa using this
  have h9 : (Src.map (canonMembers ms [])).opt 9 "buildTargetChangedProvider" decBool = some x.buildTargetChangedProvider := by
    have := opt_canon_skip (k := "buildTargetChangedProvider") (ms := ms) (dec := decBool) (enc := Json.bool) (o := x.buildTargetChangedProvider) (n := Option.map _root_.id) 9 (by subst hms; simp [lookupLast_append, lookupLast_fld, lookupLast_skipNone, lookupLast_skipIf]) rfl (decOpt_canon (n := _root_.id) (by simp) dec_bool)
    simpa using this
  exact (bind_of_some rfl).trans ((bind_of_some h0).trans ((bind_of_some h1).trans ((bind_of_some h2).trans ((bind_of_some h3).trans ((bind_of_some h4).trans ((bind_of_some h5).trans ((bind_of_some h6).trans ((bind_of_some h7).trans ((bind_of_some h8).trans (bind_of_some h9))))))))))

theorem dec_congr {a b : Members} (h : SameOn fields a b) : dec (.obj a) = dec (.obj b) := by
  have h0 : List.lookup "compileProvider" a = List.lookup "compileProvider" b := h.lookup (by simp [fields])
  have h1 : List.lookup "testProvider" a = List.lookup "testProvider" b := h.lookup (by simp [fields])
  have h2 : List.lookup "runProvider" a = List.lookup "runProvider" b := h.lookup (by simp [fields])
  have h3 : List.lookup "debugProvider" a = List.lookup "debugProvider" b := h.lookup (by simp [fields])
  have h4 : List.lookup "inverseSourcesProvider" a = List.lookup "inverseSourcesProvider" b := h.lookup (by simp [fields])
  have h5 : List.lookup "dependencySourcesProvider" a = List.lookup "dependencySourcesProvider" b := h.lookup (by simp [fields])
  have h6 : List.lookup "dependencyModulesProvider" a = List.lookup "dependencyModulesProvider" b := h.lookup (by simp [fields])
  have h7 : List.lookup "resourcesProvider" a = List.lookup "resourcesProvider" b := h.lookup (by simp [fields])
  have h8 : List.lookup "canReload" a = List.lookup "canReload" b := h.lookup (by simp [fields])
  have h9 : List.lookup "buildTargetChangedProvider" a = List.lookup "buildTargetChangedProvider" b := h.lookup (by simp [fields])
  simp only [dec, structSrc, h.dup]
  split
  · rfl
  · simp only [Option.bind_eq_bind, Option.bind_some, Src.req, Src.opt, Src.dflt, Src.get, h0, h1, h2, h3, h4, h5, h6, h7, h8, h9]

theorem dec_absent_compileProvider {ms : Members} (h : List.lookup "compileProvider" ms = none) :
    dec (.obj ms) = dec (.obj (("compileProvider", .null) :: ms)) := by
  simp only [dec, structSrc, dupKnown_cons fields _ _ h]
  split
  · rfl
  · simp [Src.req, Src.opt, Src.dflt, Src.get, lookup_cons', h, decOpt]

theorem dec_absent_testProvider {ms : Members} (h : List.lookup "testProvider" ms = none) :
    dec (.obj ms) = dec (.obj (("testProvider", .null) :: ms)) := by
  simp only [dec, structSrc, dupKnown_cons fields _ _ h]
  split
  · rfl
  · simp [Src.req, Src.opt, Src.dflt, Src.get, lookup_cons', h, decOpt]

theorem dec_absent_runProvider {ms : Members} (h : List.lookup "runProvider" ms = none) :
    dec (.obj ms) = dec (.obj (("runProvider", .null) :: ms)) := by
  simp only [dec, structSrc, dupKnown_cons fields _ _ h]
  split
  · rfl
  · simp [Src.req, Src.opt, Src.dflt, Src.get, lookup_cons', h, decOpt]

theorem dec_absent_debugProvider {ms : Members} (h : List.lookup "debugProvider" ms = none) :
    dec (.obj ms) = dec (.obj (("debugProvider", .null) :: ms)) := by
  simp only [dec, structSrc, dupKnown_cons fields _ _ h]
  split
  · rfl
  · simp [Src.req, Src.opt, Src.dflt, Src.get, lookup_cons', h, decOpt]

theorem dec_absent_inverseSourcesProvider {ms : Members} (h : List.lookup "inverseSourcesProvider" ms = none) :
    dec (.obj ms) = dec (.obj (("inverseSourcesProvider", .null) :: ms)) := by
  simp only [dec, structSrc, dupKnown_cons fields _ _ h]
  split
  · rfl
  · simp [Src.req, Src.opt, Src.dflt, Src.get, lookup_cons', h, decOpt]

theorem dec_absent_dependencySourcesProvider {ms : Members} (h : List.lookup "dependencySourcesProvider" ms = none) :
    dec (.obj ms) = dec (.obj (("dependencySourcesProvider", .null) :: ms)) := by
  simp only [dec, structSrc, dupKnown_cons fields _ _ h]
  split
  · rfl
  · simp [Src.req, Src.opt, Src.dflt, Src.get, lookup_cons', h, decOpt]

theorem dec_absent_dependencyModulesProvider {ms : Members} (h : List.lookup "dependencyModulesProvider" ms = none) :
    dec (.obj ms) = dec (.obj (("dependencyModulesProvider", .null) :: ms)) := by
  simp only [dec, structSrc, dupKnown_cons fields _ _ h]
  split
  · rfl
  · simp [Src.req, Src.opt, Src.dflt, Src.get, lookup_cons', h, decOpt]

theorem dec_absent_resourcesProvider {ms : Members} (h : List.lookup "resourcesProvider" ms = none) :
    dec (.obj ms) = dec (.obj (("resourcesProvider", .null) :: ms)) := by
  simp only [dec, structSrc, dupKnown_cons fields _ _ h]
  split
  · rfl
  · simp [Src.req, Src.opt, Src.dflt, Src.get, lookup_cons', h, decOpt]

theorem dec_absent_canReload {ms : Members} (h : List.lookup "canReload" ms = none) :
    dec (.obj ms) = dec (.obj (("canReload", .null) :: ms)) := by
  simp only [dec, structSrc, dupKnown_cons fields _ _ h]
  split
  · rfl
  · simp [Src.req, Src.opt, Src.dflt, Src.get, lookup_cons', h, decOpt]

theorem dec_absent_buildTargetChangedProvider {ms : Members} (h : List.lookup "buildTargetChangedProvider" ms = none) :
    dec (.obj ms) = dec (.obj (("buildTargetChangedProvider", .null) :: ms)) := by
  simp only [dec, structSrc, dupKnown_cons fields _ _ h]
  split
  · rfl
  · simp [Src.req, Src.opt, Src.dflt, Src.get, lookup_cons', h, decOpt]

end ServerCapabilities

/-! ### InitializeBuildResult -/

/-- bsp-types/src/initialize_result.rs:6-20. -/
structure InitializeBuildResult where
  displayName : String
  version : String
  bspVersion : String
  capabilities : ServerCapabilities
  data : Option Value

namespace InitializeBuildResult

/-- Wire names of the fields, in declaration order. bsp-types/src/initialize_result.rs:6-20. -/
def fields : List String := ["displayName", "version", "bspVersion", "capabilities", "data"]

/-- Derived `Serialize`. bsp-types/src/initialize_result.rs:6-20. -/
def enc (x : InitializeBuildResult) : Json :=
  .obj (fld "displayName" (Json.str x.displayName)
    ++ fld "version" (Json.str x.version)
    ++ fld "bspVersion" (Json.str x.bspVersion)
    ++ fld "capabilities" (ServerCapabilities.enc x.capabilities)
    ++ skipNone "data" Value.json x.data)

/-- Derived `Deserialize`. bsp-types/src/initialize_result.rs:6-20. -/
def dec (j : Json) : Option InitializeBuildResult := do
  let s ← structSrc fields j
  let displayName ← s.req 0 "displayName" decStr
  let version ← s.req 1 "version" decStr
  let bspVersion ← s.req 2 "bspVersion" decStr
  let capabilities ← s.req 3 "capabilities" ServerCapabilities.dec
  let data ← s.opt 4 "data" decValue
  return { displayName, version, bspVersion, capabilities, data }

/-- What is left of a value after the wire. bsp-types/src/initialize_result.rs:6-20. -/
def norm (x : InitializeBuildResult) : InitializeBuildResult :=
  { x with data := normData x.data }

theorem dec_enc (x : InitializeBuildResult) : dec (canon (enc x)) = some x.norm := by
  simp only [dec, enc, structSrc_canon_obj]
  generalize hms : (fld "displayName" (Json.str x.displayName) ++ fld "version" (Json.str x.version) ++ fld "bspVersion" (Json.str x.bspVersion) ++ fld "capabilities" (ServerCapabilities.enc x.capabilities) ++ skipNone "data" Value.json x.data : Members) = ms
  have h0 : (Src.map (canonMembers ms [])).req 0 "displayName" decStr = some (x.displayName) :=
    req_canon (j := Json.str x.displayName) 0 (by subst hms; simp [lookupLast_append, lookupLast_fld, lookupLast_skipNone, lookupLast_skipIf]) (dec_str x.displayName)
  have h1 : (Src.map (canonMembers ms [])).req 1 "version" decStr = some (x.version) :=
    req_canon (j := Json.str x.version) 1 (by subst hms; simp [lookupLast_append, lookupLast_fld, lookupLast_skipNone, lookupLast_skipIf]) (dec_str x.version)
  have h2 : (Src.map (canonMembers ms [])).req 2 "bspVersion" decStr = some (x.bspVersion) :=
    req_canon (j := Json.str x.bspVersion) 2 (by subst hms; simp [lookupLast_append, lookupLast_fld, lookupLast_skipNone, lookupLast_skipIf]) (dec_str x.bspVersion)
  have h3 : (Src.map (canonMembers ms [])).req 3 "capabilities" ServerCapabilities.dec = some (x.capabilities) :=
    req_canon (j := ServerCapabilities.enc x.capabilities) 3 (by subst hms; simp [lookupLast_append, lookupLast_fld, lookupLast_skipNone, lookupLast_skipIf]) (ServerCapabilities.dec_enc x.capabilities)
  have h4 : (Src.map (canonMembers ms [])).opt 4 "data" decValue = some (normData x.data) :=
    opt_canon_skip (enc := Value.json) (o := x.data) (n := normData) 4 (by subst hms; simp [lookupLast_append, lookupLast_fld, lookupLast_skipNone, lookupLast_skipIf]) rfl decOpt_value
  exact (bind_of_some rfl).trans ((bind_of_some h0).trans ((bind_of_some h1).trans ((bind_of_some h2).trans ((bind_of_some h3).trans (bind_of_some h4)))))

theorem dec_congr {a b : Members} (h : SameOn fields a b) : dec (.obj a) = dec (.obj b) := by
  have h0 : List.lookup "displayName" a = List.lookup "displayName" b := h.lookup (by simp [fields])
  have h1 : List.lookup "version" a = List.lookup "version" b := h.lookup (by simp [fields])
  have h2 : List.lookup "bspVersion" a = List.lookup "bspVersion" b := h.lookup (by simp [fields])
  have h3 : List.lookup "capabilities" a = List.lookup "capabilities" b := h.lookup (by simp [fields])
  have h4 : List.lookup "data" a = List.lookup "data" b := h.lookup (by simp [fields])
  simp only [dec, structSrc, h.dup]
  split
  · rfl
  · simp only [Option.bind_eq_bind, Option.bind_some, Src.req, Src.opt, Src.dflt, Src.get, h0, h1, h2, h3, h4]

theorem dec_missing_displayName {ms : Members} (h : List.lookup "displayName" ms = none) :
    dec (.obj ms) = none := by
  simp only [dec, structSrc]
  split
  · rfl
  · simp [Src.req, Src.get, h]

theorem dec_missing_version {ms : Members} (h : List.lookup "version" ms = none) :
    dec (.obj ms) = none := by
  simp only [dec, structSrc]
  split
  · rfl
  · simp [Src.req, Src.get, h]

theorem dec_missing_bspVersion {ms : Members} (h : List.lookup "bspVersion" ms = none) :
    dec (.obj ms) = none := by
  simp only [dec, structSrc]
  split
  · rfl
  · simp [Src.req, Src.get, h]

theorem dec_missing_capabilities {ms : Members} (h : List.lookup "capabilities" ms = none) :
    dec (.obj ms) = none := by
  simp only [dec, structSrc]
  split
  · rfl
  · simp [Src.req, Src.get, h]

theorem dec_absent_data {ms : Members} (h : List.lookup "data" ms = none) :
    dec (.obj ms) = dec (.obj (("data", .null) :: ms)) := by
  simp only [dec, structSrc, dupKnown_cons fields _ _ h]
  split
  · rfl
  · simp [Src.req, Src.opt, Src.dflt, Src.get, lookup_cons', h, decOpt]

end InitializeBuildResult

/-! ### BuildTargetCapabilities -/

/-- bsp-types/src/bt_capabilities.rs:4-18. -/
structure BuildTargetCapabilities where
  canCompile : Bool
  canTest : Bool
  canRun : Bool
  canDebug : Bool

namespace BuildTargetCapabilities

/-- Wire names of the fields, in declaration order. bsp-types/src/bt_capabilities.rs:4-18. -/
def fields : List String := ["canCompile", "canTest", "canRun", "canDebug"]

/-- Derived `Serialize`. bsp-types/src/bt_capabilities.rs:4-18. -/
def enc (x : BuildTargetCapabilities) : Json :=
  .obj (fld "canCompile" (Json.bool x.canCompile)
    ++ fld "canTest" (Json.bool x.canTest)
    ++ fld "canRun" (Json.bool x.canRun)
    ++ fld "canDebug" (Json.bool x.canDebug))

/-- Derived `Deserialize`. bsp-types/src/bt_capabilities.rs:4-18. -/
def dec (j : Json) : Option BuildTargetCapabilities := do
  let s ← structSrc fields j
  let canCompile ← s.req 0 "canCompile" decBool
  let canTest ← s.req 1 "canTest" decBool
  let canRun ← s.req 2 "canRun" decBool
  let canDebug ← s.req 3 "canDebug" decBool
  return { canCompile, canTest, canRun, canDebug }

theorem dec_enc (x : BuildTargetCapabilities) : dec (canon (enc x)) = some x := by
  simp only [dec, enc, structSrc_canon_obj]
  generalize hms : (fld "canCompile" (Json.bool x.canCompile) ++ fld "canTest" (Json.bool x.canTest) ++ fld "canRun" (Json.bool x.canRun) ++ fld "canDebug" (Json.bool x.canDebug) : Members) = ms
  have h0 : (Src.map (canonMembers ms [])).req 0 "canCompile" decBool = some (x.canCompile) :=
    req_canon (j := Json.bool x.canCompile) 0 (by subst hms; simp [lookupLast_append, lookupLast_fld, lookupLast_skipNone, lookupLast_skipIf]) (dec_bool x.canCompile)
  have h1 : (Src.map (canonMembers ms [])).req 1 "canTest" decBool = some (x.canTest) :=
    req_canon (j := Json.bool x.canTest) 1 (by subst hms; simp [lookupLast_append, lookupLast_fld, lookupLast_skipNone, lookupLast_skipIf]) (dec_bool x.canTest)
  have h2 : (Src.map (canonMembers ms [])).req 2 "canRun" decBool = some (x.canRun) :=
    req_canon (j := Json.bool x.canRun) 2 (by subst hms; simp [lookupLast_append, lookupLast_fld, lookupLast_skipNone, lookupLast_skipIf]) (dec_bool x.canRun)
  have h3 : (Src.map (canonMembers ms [])).req 3 "canDebug" decBool = some (x.canDebug) :=
    req_canon (j := Json.bool x.canDebug) 3 (by subst hms; simp [lookupLast_append, lookupLast_fld, lookupLast_skipNone, lookupLast_skipIf]) (dec_bool x.canDebug)
  exact (bind_of_some rfl).trans ((bind_of_some h0).trans ((bind_of_some h1).trans ((bind_of_some h2).trans (bind_of_some h3))))

theorem dec_congr {a b : Members} (h : SameOn fields a b) : dec (.obj a) = dec (.obj b) := by
  have h0 : List.lookup "canCompile" a = List.lookup "canCompile" b := h.lookup (by simp [fields])
  have h1 : List.lookup "canTest" a = List.lookup "canTest" b := h.lookup (by simp [fields])
  have h2 : List.lookup "canRun" a = List.lookup "canRun" b := h.lookup (by simp [fields])
  have h3 : List.lookup "canDebug" a = List.lookup "canDebug" b := h.lookup (by simp [fields])
  simp only [dec, structSrc, h.dup]
  split
  · rfl
  · simp only [Option.bind_eq_bind, Option.bind_some, Src.req, Src.opt, Src.dflt, Src.get, h0, h1, h2, h3]

theorem dec_missing_canCompile {ms : Members} (h : List.lookup "canCompile" ms = none) :
    dec (.obj ms) = none := by
  simp only [dec, structSrc]
  split
  · rfl
  · simp [Src.req, Src.get, h]

theorem dec_missing_canTest {ms : Members} (h : List.lookup "canTest" ms = none) :
    dec (.obj ms) = none := by
  simp only [dec, structSrc]
  split
  · rfl
  · simp [Src.req, Src.get, h]

theorem dec_missing_canRun {ms : Members} (h : List.lookup "canRun" ms = none) :
    dec (.obj ms) = none := by
  simp only [dec, structSrc]
  split
  · rfl
  · simp [Src.req, Src.get, h]

theorem dec_missing_canDebug {ms : Members} (h : List.lookup "canDebug" ms = none) :
    dec (.obj ms) = none := by
  simp only [dec, structSrc]
  split
  · rfl
  · simp [Src.req, Src.get, h]

end BuildTargetCapabilities

/-! ### BuildTarget -/

/-- bsp-types/src/workspace_build_targets.rs:15-54. -/
structure BuildTarget [Ext] where
  id : BuildTargetIdentifier
  displayName : Option String
  baseDirectory : Option String
  tags : List BuildTargetTag
  capabilities : BuildTargetCapabilities
  languageIds : List String
  dependencies : List BuildTargetIdentifier

namespace BuildTarget

/-- Wire names of the fields, in declaration order. bsp-types/src/workspace_build_targets.rs:15-54. -/
def fields : List String := ["id", "displayName", "baseDirectory", "tags", "capabilities", "languageIds", "dependencies"]

/-- Derived `Serialize`. bsp-types/src/workspace_build_targets.rs:15-54. -/
def enc [Ext] (x : BuildTarget) : Json :=
  .obj (fld "id" (BuildTargetIdentifier.enc x.id)
    ++ skipNone "displayName" Json.str x.displayName
    ++ skipNone "baseDirectory" Json.str x.baseDirectory
    ++ fld "tags" (encList BuildTargetTag.enc x.tags)
    ++ fld "capabilities" (BuildTargetCapabilities.enc x.capabilities)
    ++ fld "languageIds" (encList Json.str x.languageIds)
    ++ fld "dependencies" (encList BuildTargetIdentifier.enc x.dependencies))

/-- Derived `Deserialize`. bsp-types/src/workspace_build_targets.rs:15-54. -/
def dec [Ext] (j : Json) : Option BuildTarget := do
  let s ← structSrc fields j
  let id ← s.req 0 "id" BuildTargetIdentifier.dec
  let displayName ← s.opt 1 "displayName" decStr
  let baseDirectory ← s.opt 2 "baseDirectory" decStr
  let tags ← s.req 3 "tags" (decList BuildTargetTag.dec)
  let capabilities ← s.req 4 "capabilities" BuildTargetCapabilities.dec
  let languageIds ← s.req 5 "languageIds" (decList decStr)
  let dependencies ← s.req 6 "dependencies" (decList BuildTargetIdentifier.dec)
  return { id, displayName, baseDirectory, tags, capabilities, languageIds, dependencies }

theorem dec_enc [LawfulExt] (x : BuildTarget) : dec (canon (enc x)) = some x := by
  simp only [dec, enc, structSrc_canon_obj]
  generalize hms : (fld "id" (BuildTargetIdentifier.enc x.id) ++ skipNone "displayName" Json.str x.displayName ++ skipNone "baseDirectory" Json.str x.baseDirectory ++ fld "tags" (encList BuildTargetTag.enc x.tags) ++ fld "capabilities" (BuildTargetCapabilities.enc x.capabilities) ++ fld "languageIds" (encList Json.str x.languageIds) ++ fld "dependencies" (encList BuildTargetIdentifier.enc x.dependencies) : Members) = ms
  have h0 : (Src.map (canonMembers ms [])).req 0 "id" BuildTargetIdentifier.dec = some (x.id) :=
    req_canon (j := BuildTargetIdentifier.enc x.id) 0 (by subst hms; simp [lookupLast_append, lookupLast_fld, lookupLast_skipNone, lookupLast_skipIf]) (BuildTargetIdentifier.dec_enc x.id)
  have h1 : (Src.map (canonMembers ms [])).opt 1 "displayName" decStr = some x.displayName := by
    have := opt_canon_skip (k := "displayName") (ms := ms) (dec := decStr) (enc := Json.str) (o := x.displayName) (n := Option.map _root_.id) 1 (by subst hms; simp [lookupLast_append, lookupLast_fld, lookupLast_skipNone, lookupLast_skipIf]) rfl (decOpt_canon (n := _root_.id) (by simp) dec_str)
    simpa using this
  have h2 : (Src.map (canonMembers ms [])).opt 2 "baseDirectory" decStr = some x.baseDirectory := by
    have := opt_canon_skip (k := "baseDirectory") (ms := ms) (dec := decStr) (enc := Json.str) (o := x.baseDirectory) (n := Option.map _root_.id) 2 (by subst hms; simp [lookupLast_append, lookupLast_fld, lookupLast_skipNone, lookupLast_skipIf]) rfl (decOpt_canon (n := _root_.id) (by simp) dec_str)
    simpa using this
  have h3 : (Src.map (canonMembers ms [])).req 3 "tags" (decList BuildTargetTag.dec) = some (x.tags) :=
    req_canon (j := encList BuildTargetTag.enc x.tags) 3 (by subst hms; simp [lookupLast_append, lookupLast_fld, lookupLast_skipNone, lookupLast_skipIf]) (dec_list_id BuildTargetTag.dec_enc x.tags)
  have h4 : (Src.map (canonMembers ms [])).req 4 "capabilities" BuildTargetCapabilities.dec = some (x.capabilities) :=
    req_canon (j := BuildTargetCapabilities.enc x.capabilities) 4 (by subst hms; simp [lookupLast_append, lookupLast_fld, lookupLast_skipNone, lookupLast_skipIf]) (BuildTargetCapabilities.dec_enc x.capabilities)
  have h5 : (Src.map (canonMembers ms [])).req 5 "languageIds" (decList decStr) = some (x.languageIds) :=
    req_canon (j := encList Json.str x.languageIds) 5 (by subst hms; simp [lookupLast_append, lookupLast_fld, lookupLast_skipNone, lookupLast_skipIf]) (dec_list_id dec_str x.languageIds)
  have h6 : (Src.map (canonMembers ms [])).req 6 "dependencies" (decList BuildTargetIdentifier.dec) = some (x.dependencies) :=
    req_canon (j := encList BuildTargetIdentifier.enc x.dependencies) 6 (by subst hms; simp [lookupLast_append, lookupLast_fld, lookupLast_skipNone, lookupLast_skipIf]) (dec_list_id BuildTargetIdentifier.dec_enc x.dependencies)
  exact (bind_of_some rfl).trans ((bind_of_some h0).trans ((bind_of_some h1).trans ((bind_of_some h2).trans ((bind_of_some h3).trans ((bind_of_some h4).trans ((bind_of_some h5).trans (bind_of_some h6)))))))

theorem dec_congr [Ext] {a b : Members} (h : SameOn fields a b) : dec (.obj a) = dec (.obj b) := by
  have h0 : List.lookup "id" a = List.lookup "id" b := h.lookup (by simp [fields])
  have h1 : List.lookup "displayName" a = List.lookup "displayName" b := h.lookup (by simp [fields])
  have h2 : List.lookup "baseDirectory" a = List.lookup "baseDirectory" b := h.lookup (by simp [fields])
  have h3 : List.lookup "tags" a = List.lookup "tags" b := h.lookup (by simp [fields])
  have h4 : List.lookup "capabilities" a = List.lookup "capabilities" b := h.lookup (by simp [fields])
  have h5 : List.lookup "languageIds" a = List.lookup "languageIds" b := h.lookup (by simp [fields])
  have h6 : List.lookup "dependencies" a = List.lookup "dependencies" b := h.lookup (by simp [fields])
  simp only [dec, structSrc, h.dup]
  split
  · rfl
  · simp only [Option.bind_eq_bind, Option.bind_some, Src.req, Src.opt, Src.dflt, Src.get, h0, h1, h2, h3, h4, h5, h6]

theorem dec_missing_id [Ext] {ms : Members} (h : List.lookup "id" ms = none) :
    dec (.obj ms) = none := by
  simp only [dec, structSrc]
  split
  · rfl
  · simp [Src.req, Src.get, h]

theorem dec_absent_displayName [Ext] {ms : Members} (h : List.lookup "displayName" ms = none) :
    dec (.obj ms) = dec (.obj (("displayName", .null) :: ms)) := by
  simp only [dec, structSrc, dupKnown_cons fields _ _ h]
  split
  · rfl
  · simp [Src.req, Src.opt, Src.dflt, Src.get, lookup_cons', h, decOpt]

theorem dec_absent_baseDirectory [Ext] {ms : Members} (h : List.lookup "baseDirectory" ms = none) :
    dec (.obj ms) = dec (.obj (("baseDirectory", .null) :: ms)) := by
  simp only [dec, structSrc, dupKnown_cons fields _ _ h]
  split
  · rfl
  · simp [Src.req, Src.opt, Src.dflt, Src.get, lookup_cons', h, decOpt]

theorem dec_missing_tags [Ext] {ms : Members} (h : List.lookup "tags" ms = none) :
    dec (.obj ms) = none := by
  simp only [dec, structSrc]
  split
  · rfl
  · simp [Src.req, Src.get, h]

theorem dec_missing_capabilities [Ext] {ms : Members} (h : List.lookup "capabilities" ms = none) :
    dec (.obj ms) = none := by
  simp only [dec, structSrc]
  split
  · rfl
  · simp [Src.req, Src.get, h]

theorem dec_missing_languageIds [Ext] {ms : Members} (h : List.lookup "languageIds" ms = none) :
    dec (.obj ms) = none := by
  simp only [dec, structSrc]
  split
  · rfl
  · simp [Src.req, Src.get, h]

theorem dec_missing_dependencies [Ext] {ms : Members} (h : List.lookup "dependencies" ms = none) :
    dec (.obj ms) = none := by
  simp only [dec, structSrc]
  split
  · rfl
  · simp [Src.req, Src.get, h]

end BuildTarget

/-! ### WorkspaceBuildTargetsResult -/

/-- bsp-types/src/workspace_build_targets.rs:9-12. -/
structure WorkspaceBuildTargetsResult [Ext] where
  targets : List BuildTarget

namespace WorkspaceBuildTargetsResult

/-- Wire names of the fields, in declaration order. bsp-types/src/workspace_build_targets.rs:9-12. -/
def fields : List String := ["targets"]

/-- Derived `Serialize`. bsp-types/src/workspace_build_targets.rs:9-12. -/
def enc [Ext] (x : WorkspaceBuildTargetsResult) : Json :=
  .obj (fld "targets" (encList BuildTarget.enc x.targets))

/-- Derived `Deserialize`. bsp-types/src/workspace_build_targets.rs:9-12. -/
def dec [Ext] (j : Json) : Option WorkspaceBuildTargetsResult := do
  let s ← structSrc fields j
  let targets ← s.req 0 "targets" (decList BuildTarget.dec)
  return { targets }

theorem dec_enc [LawfulExt] (x : WorkspaceBuildTargetsResult) : dec (canon (enc x)) = some x := by
  simp only [dec, enc, structSrc_canon_obj]
  generalize hms : (fld "targets" (encList BuildTarget.enc x.targets) : Members) = ms
  have h0 : (Src.map (canonMembers ms [])).req 0 "targets" (decList BuildTarget.dec) = some (x.targets) :=
    req_canon (j := encList BuildTarget.enc x.targets) 0 (by subst hms; simp [lookupLast_append, lookupLast_fld, lookupLast_skipNone, lookupLast_skipIf]) (dec_list_id BuildTarget.dec_enc x.targets)
  exact (bind_of_some rfl).trans (bind_of_some h0)

theorem dec_congr [Ext] {a b : Members} (h : SameOn fields a b) : dec (.obj a) = dec (.obj b) := by
  have h0 : List.lookup "targets" a = List.lookup "targets" b := h.lookup (by simp [fields])
  simp only [dec, structSrc, h.dup]
  split
  · rfl
  · simp only [Option.bind_eq_bind, Option.bind_some, Src.req, Src.opt, Src.dflt, Src.get, h0]

theorem dec_missing_targets [Ext] {ms : Members} (h : List.lookup "targets" ms = none) :
    dec (.obj ms) = none := by
  simp only [dec, structSrc]
  split
  · rfl
  · simp [Src.req, Src.get, h]

end WorkspaceBuildTargetsResult

/-! ### DebugSessionStartResult -/

/-- bsp-types/src/debug_session_start.rs:64-68. -/
structure DebugSessionStartResult [Ext] where
  uri : Ext.Url

namespace DebugSessionStartResult

/-- Wire names of the fields, in declaration order. bsp-types/src/debug_session_start.rs:64-68. -/
def fields : List String := ["uri"]

/-- Derived `Serialize`. bsp-types/src/debug_session_start.rs:64-68. -/
def enc [Ext] (x : DebugSessionStartResult) : Json :=
  .obj (fld "uri" (encUrl x.uri))

/-- Derived `Deserialize`. bsp-types/src/debug_session_start.rs:64-68. -/
def dec [Ext] (j : Json) : Option DebugSessionStartResult := do
  let s ← structSrc fields j
  let uri ← s.req 0 "uri" decUrl
  return { uri }

theorem dec_enc [LawfulExt] (x : DebugSessionStartResult) : dec (canon (enc x)) = some x := by
  simp only [dec, enc, structSrc_canon_obj]
  generalize hms : (fld "uri" (encUrl x.uri) : Members) = ms
  have h0 : (Src.map (canonMembers ms [])).req 0 "uri" decUrl = some (x.uri) :=
    req_canon (j := encUrl x.uri) 0 (by subst hms; simp [lookupLast_append, lookupLast_fld, lookupLast_skipNone, lookupLast_skipIf]) (dec_url x.uri)
  exact (bind_of_some rfl).trans (bind_of_some h0)

theorem dec_congr [Ext] {a b : Members} (h : SameOn fields a b) : dec (.obj a) = dec (.obj b) := by
  have h0 : List.lookup "uri" a = List.lookup "uri" b := h.lookup (by simp [fields])
  simp only [dec, structSrc, h.dup]
  split
  · rfl
  · simp only [Option.bind_eq_bind, Option.bind_some, Src.req, Src.opt, Src.dflt, Src.get, h0]

theorem dec_missing_uri [Ext] {ms : Members} (h : List.lookup "uri" ms = none) :
    dec (.obj ms) = none := by
  simp only [dec, structSrc]
  split
  · rfl
  · simp [Src.req, Src.get, h]

end DebugSessionStartResult

/-! ### Sources -/

/-- bsp-types/src/bt_sources.rs:85-98. -/
structure Sources [Ext] where
  uri : Ext.Url
  kind : SourceKind
  generated : Bool

namespace Sources

/-- Wire names of the fields, in declaration order. bsp-types/src/bt_sources.rs:85-98. -/
def fields : List String := ["uri", "kind", "generated"]

/-- Derived `Serialize`. bsp-types/src/bt_sources.rs:85-98. -/
def enc [Ext] (x : Sources) : Json :=
  .obj (fld "uri" (encUrl x.uri)
    ++ fld "kind" (SourceKind.enc x.kind)
    ++ fld "generated" (Json.bool x.generated))

/-- Derived `Deserialize`. bsp-types/src/bt_sources.rs:85-98. -/
def dec [Ext] (j : Json) : Option Sources := do
  let s ← structSrc fields j
  let uri ← s.req 0 "uri" decUrl
  let kind ← s.req 1 "kind" SourceKind.dec
  let generated ← s.req 2 "generated" decBool
  return { uri, kind, generated }

theorem dec_enc [LawfulExt] (x : Sources) : dec (canon (enc x)) = some x := by
  simp only [dec, enc, structSrc_canon_obj]
  generalize hms : (fld "uri" (encUrl x.uri) ++ fld "kind" (SourceKind.enc x.kind) ++ fld "generated" (Json.bool x.generated) : Members) = ms
  have h0 : (Src.map (canonMembers ms [])).req 0 "uri" decUrl = some (x.uri) :=
    req_canon (j := encUrl x.uri) 0 (by subst hms; simp [lookupLast_append, lookupLast_fld, lookupLast_skipNone, lookupLast_skipIf]) (dec_url x.uri)
  have h1 : (Src.map (canonMembers ms [])).req 1 "kind" SourceKind.dec = some (x.kind) :=
    req_canon (j := SourceKind.enc x.kind) 1 (by subst hms; simp [lookupLast_append, lookupLast_fld, lookupLast_skipNone, lookupLast_skipIf]) (SourceKind.dec_enc x.kind)
  have h2 : (Src.map (canonMembers ms [])).req 2 "generated" decBool = some (x.generated) :=
    req_canon (j := Json.bool x.generated) 2 (by subst hms; simp [lookupLast_append, lookupLast_fld, lookupLast_skipNone, lookupLast_skipIf]) (dec_bool x.generated)
  exact (bind_of_some rfl).trans ((bind_of_some h0).trans ((bind_of_some h1).trans (bind_of_some h2)))

theorem dec_congr [Ext] {a b : Members} (h : SameOn fields a b) : dec (.obj a) = dec (.obj b) := by
  have h0 : List.lookup "uri" a = List.lookup "uri" b := h.lookup (by simp [fields])
  have h1 : List.lookup "kind" a = List.lookup "kind" b := h.lookup (by simp [fields])
  have h2 : List.lookup "generated" a = List.lookup "generated" b := h.lookup (by simp [fields])
  simp only [dec, structSrc, h.dup]
  split
  · rfl
  · simp only [Option.bind_eq_bind, Option.bind_some, Src.req, Src.opt, Src.dflt, Src.get, h0, h1, h2]

theorem dec_missing_uri [Ext] {ms : Members} (h : List.lookup "uri" ms = none) :
    dec (.obj ms) = none := by
  simp only [dec, structSrc]
  split
  · rfl
  · simp [Src.req, Src.get, h]

theorem dec_missing_kind [Ext] {ms : Members} (h : List.lookup "kind" ms = none) :
    dec (.obj ms) = none := by
  simp only [dec, structSrc]
  split
  · rfl
  · simp [Src.req, Src.get, h]

theorem dec_missing_generated [Ext] {ms : Members} (h : List.lookup "generated" ms = none) :
    dec (.obj ms) = none := by
  simp only [dec, structSrc]
  split
  · rfl
  · simp [Src.req, Src.get, h]

end Sources

/-! ### SourcesCollection -/

/-- bsp-types/src/bt_sources.rs:51-57. -/
structure SourcesCollection [Ext] where
  target : BuildTargetIdentifier
  sources : List Sources

namespace SourcesCollection

/-- Wire names of the fields, in declaration order. bsp-types/src/bt_sources.rs:51-57. -/
def fields : List String := ["target", "sources"]

/-- Derived `Serialize`. bsp-types/src/bt_sources.rs:51-57. -/
def enc [Ext] (x : SourcesCollection) : Json :=
  .obj (fld "target" (BuildTargetIdentifier.enc x.target)
    ++ fld "sources" (encList Sources.enc x.sources))

/-- Derived `Deserialize`. bsp-types/src/bt_sources.rs:51-57. -/
def dec [Ext] (j : Json) : Option SourcesCollection := do
  let s ← structSrc fields j
  let target ← s.req 0 "target" BuildTargetIdentifier.dec
  let sources ← s.req 1 "sources" (decList Sources.dec)
  return { target, sources }

theorem dec_enc [LawfulExt] (x : SourcesCollection) : dec (canon (enc x)) = some x := by
  simp only [dec, enc, structSrc_canon_obj]
  generalize hms : (fld "target" (BuildTargetIdentifier.enc x.target) ++ fld "sources" (encList Sources.enc x.sources) : Members) = ms
  have h0 : (Src.map (canonMembers ms [])).req 0 "target" BuildTargetIdentifier.dec = some (x.target) :=
    req_canon (j := BuildTargetIdentifier.enc x.target) 0 (by subst hms; simp [lookupLast_append, lookupLast_fld, lookupLast_skipNone, lookupLast_skipIf]) (BuildTargetIdentifier.dec_enc x.target)
  have h1 : (Src.map (canonMembers ms [])).req 1 "sources" (decList Sources.dec) = some (x.sources) :=
    req_canon (j := encList Sources.enc x.sources) 1 (by subst hms; simp [lookupLast_append, lookupLast_fld, lookupLast_skipNone, lookupLast_skipIf]) (dec_list_id Sources.dec_enc x.sources)
  exact (bind_of_some rfl).trans ((bind_of_some h0).trans (bind_of_some h1))

theorem dec_congr [Ext] {a b : Members} (h : SameOn fields a b) : dec (.obj a) = dec (.obj b) := by
  have h0 : List.lookup "target" a = List.lookup "target" b := h.lookup (by simp [fields])
  have h1 : List.lookup "sources" a = List.lookup "sources" b := h.lookup (by simp [fields])
  simp only [dec, structSrc, h.dup]
  split
  · rfl
  · simp only [Option.bind_eq_bind, Option.bind_some, Src.req, Src.opt, Src.dflt, Src.get, h0, h1]

theorem dec_missing_target [Ext] {ms : Members} (h : List.lookup "target" ms = none) :
    dec (.obj ms) = none := by
  simp only [dec, structSrc]
  split
  · rfl
  · simp [Src.req, Src.get, h]

theorem dec_missing_sources [Ext] {ms : Members} (h : List.lookup "sources" ms = none) :
    dec (.obj ms) = none := by
  simp only [dec, structSrc]
  split
  · rfl
  · simp [Src.req, Src.get, h]

end SourcesCollection

/-! ### BuildTargetSourcesResult -/

/-- bsp-types/src/bt_sources.rs:30-33. -/
structure BuildTargetSourcesResult [Ext] where
  items : List SourcesCollection

namespace BuildTargetSourcesResult

/-- Wire names of the fields, in declaration order. bsp-types/src/bt_sources.rs:30-33. -/
def fields : List String := ["items"]

/-- Derived `Serialize`. bsp-types/src/bt_sources.rs:30-33. -/
def enc [Ext] (x : BuildTargetSourcesResult) : Json :=
  .obj (fld "items" (encList SourcesCollection.enc x.items))

/-- Derived `Deserialize`. bsp-types/src/bt_sources.rs:30-33. -/
def dec [Ext] (j : Json) : Option BuildTargetSourcesResult := do
  let s ← structSrc fields j
  let items ← s.req 0 "items" (decList SourcesCollection.dec)
  return { items }

theorem dec_enc [LawfulExt] (x : BuildTargetSourcesResult) : dec (canon (enc x)) = some x := by
  simp only [dec, enc, structSrc_canon_obj]
  generalize hms : (fld "items" (encList SourcesCollection.enc x.items) : Members) = ms
  have h0 : (Src.map (canonMembers ms [])).req 0 "items" (decList SourcesCollection.dec) = some (x.items) :=
    req_canon (j := encList SourcesCollection.enc x.items) 0 (by subst hms; simp [lookupLast_append, lookupLast_fld, lookupLast_skipNone, lookupLast_skipIf]) (dec_list_id SourcesCollection.dec_enc x.items)
  exact (bind_of_some rfl).trans (bind_of_some h0)

theorem dec_congr [Ext] {a b : Members} (h : SameOn fields a b) : dec (.obj a) = dec (.obj b) := by
  have h0 : List.lookup "items" a = List.lookup "items" b := h.lookup (by simp [fields])
  simp only [dec, structSrc, h.dup]
  split
  · rfl
  · simp only [Option.bind_eq_bind, Option.bind_some, Src.req, Src.opt, Src.dflt, Src.get, h0]

theorem dec_missing_items [Ext] {ms : Members} (h : List.lookup "items" ms = none) :
    dec (.obj ms) = none := by
  simp only [dec, structSrc]
  split
  · rfl
  · simp [Src.req, Src.get, h]

end BuildTargetSourcesResult

/-! ### BuildTargetCompileResult -/

/-- bsp-types/src/bt_compile.rs:75-93. -/
structure BuildTargetCompileResult where
  originId : Option String
  statusCode : UInt64
  dataKind : Option String
  data : Option Value

namespace BuildTargetCompileResult

/-- Wire names of the fields, in declaration order. bsp-types/src/bt_compile.rs:75-93. -/
def fields : List String := ["originId", "statusCode", "dataKind", "data"]

/-- Derived `Serialize`. bsp-types/src/bt_compile.rs:75-93. -/
def enc (x : BuildTargetCompileResult) : Json :=
  .obj (skipNone "originId" Json.str x.originId
    ++ fld "statusCode" (encUsize x.statusCode)
    ++ skipNone "dataKind" Json.str x.dataKind
    ++ skipNone "data" Value.json x.data)

/-- Derived `Deserialize`. bsp-types/src/bt_compile.rs:75-93. -/
def dec (j : Json) : Option BuildTargetCompileResult := do
  let s ← structSrc fields j
  let originId ← s.opt 0 "originId" decStr
  let statusCode ← s.req 1 "statusCode" decUsize
  let dataKind ← s.opt 2 "dataKind" decStr
  let data ← s.opt 3 "data" decValue
  return { originId, statusCode, dataKind, data }

/-- What is left of a value after the wire. bsp-types/src/bt_compile.rs:75-93. -/
def norm (x : BuildTargetCompileResult) : BuildTargetCompileResult :=
  { x with data := normData x.data }

theorem dec_enc (x : BuildTargetCompileResult) : dec (canon (enc x)) = some x.norm := by
  simp only [dec, enc, structSrc_canon_obj]
  generalize hms : (skipNone "originId" Json.str x.originId ++ fld "statusCode" (encUsize x.statusCode) ++ skipNone "dataKind" Json.str x.dataKind ++ skipNone "data" Value.json x.data : Members) = ms
  have h0 : (Src.map (canonMembers ms [])).opt 0 "originId" decStr = some x.originId := by
    have := opt_canon_skip (k := "originId") (ms := ms) (dec := decStr) (enc := Json.str) (o := x.originId) (n := Option.map _root_.id) 0 (by subst hms; simp [lookupLast_append, lookupLast_fld, lookupLast_skipNone, lookupLast_skipIf]) rfl (decOpt_canon (n := _root_.id) (by simp) dec_str)
    simpa using this
  have h1 : (Src.map (canonMembers ms [])).req 1 "statusCode" decUsize = some (x.statusCode) :=
    req_canon (j := encUsize x.statusCode) 1 (by subst hms; simp [lookupLast_append, lookupLast_fld, lookupLast_skipNone, lookupLast_skipIf]) (dec_usize x.statusCode)
  have h2 : (Src.map (canonMembers ms [])).opt 2 "dataKind" decStr = some x.dataKind := by
    have := opt_canon_skip (k := "dataKind") (ms := ms) (dec := decStr) (enc := Json.str) (o := x.dataKind) (n := Option.map _root_.id) 2 (by subst hms; simp [lookupLast_append, lookupLast_fld, lookupLast_skipNone, lookupLast_skipIf]) rfl (decOpt_canon (n := _root_.id) (by simp) dec_str)
    simpa using this
  have h3 : (Src.map (canonMembers ms [])).opt 3 "data" decValue = some (normData x.data) :=
    opt_canon_skip (enc := Value.json) (o := x.data) (n := normData) 3 (by subst hms; simp [lookupLast_append, lookupLast_fld, lookupLast_skipNone, lookupLast_skipIf]) rfl decOpt_value
  exact (bind_of_some rfl).trans ((bind_of_some h0).trans ((bind_of_some h1).trans ((bind_of_some h2).trans (bind_of_some h3))))

theorem dec_congr {a b : Members} (h : SameOn fields a b) : dec (.obj a) = dec (.obj b) := by
  have h0 : List.lookup "originId" a = List.lookup "originId" b := h.lookup (by simp [fields])
  have h1 : List.lookup "statusCode" a = List.lookup "statusCode" b := h.lookup (by simp [fields])
  have h2 : List.lookup "dataKind" a = List.lookup "dataKind" b := h.lookup (by simp [fields])
  have h3 : List.lookup "data" a = List.lookup "data" b := h.lookup (by simp [fields])
  simp only [dec, structSrc, h.dup]
  split
  · rfl
  · simp only [Option.bind_eq_bind, Option.bind_some, Src.req, Src.opt, Src.dflt, Src.get, h0, h1, h2, h3]

theorem dec_absent_originId {ms : Members} (h : List.lookup "originId" ms = none) :
    dec (.obj ms) = dec (.obj (("originId", .null) :: ms)) := by
  simp only [dec, structSrc, dupKnown_cons fields _ _ h]
  split
  · rfl
  · simp [Src.req, Src.opt, Src.dflt, Src.get, lookup_cons', h, decOpt]

theorem dec_missing_statusCode {ms : Members} (h : List.lookup "statusCode" ms = none) :
    dec (.obj ms) = none := by
  simp only [dec, structSrc]
  split
  · rfl
  · simp [Src.req, Src.get, h]

theorem dec_absent_dataKind {ms : Members} (h : List.lookup "dataKind" ms = none) :
    dec (.obj ms) = dec (.obj (("dataKind", .null) :: ms)) := by
  simp only [dec, structSrc, dupKnown_cons fields _ _ h]
  split
  · rfl
  · simp [Src.req, Src.opt, Src.dflt, Src.get, lookup_cons', h, decOpt]

theorem dec_absent_data {ms : Members} (h : List.lookup "data" ms = none) :
    dec (.obj ms) = dec (.obj (("data", .null) :: ms)) := by
  simp only [dec, structSrc, dupKnown_cons fields _ _ h]
  split
  · rfl
  · simp [Src.req, Src.opt, Src.dflt, Src.get, lookup_cons', h, decOpt]

end BuildTargetCompileResult

/-! ### BuildTargetTestResult -/

/-- bsp-types/src/bt_test.rs:111-129. -/
structure BuildTargetTestResult where
  originId : Option String
  statusCode : UInt64
  dataKind : Option String
  data : Option Value

namespace BuildTargetTestResult

/-- Wire names of the fields, in declaration order. bsp-types/src/bt_test.rs:111-129. -/
def fields : List String := ["originId", "statusCode", "dataKind", "data"]

/-- Derived `Serialize`. bsp-types/src/bt_test.rs:111-129. -/
def enc (x : BuildTargetTestResult) : Json :=
  .obj (skipNone "originId" Json.str x.originId
    ++ fld "statusCode" (encUsize x.statusCode)
    ++ skipNone "dataKind" Json.str x.dataKind
    ++ skipNone "data" Value.json x.data)

/-- Derived `Deserialize`. bsp-types/src/bt_test.rs:111-129. -/
def dec (j : Json) : Option BuildTargetTestResult := do
  let s ← structSrc fields j
  let originId ← s.opt 0 "originId" decStr
  let statusCode ← s.req 1 "statusCode" decUsize
  let dataKind ← s.opt 2 "dataKind" decStr
  let data ← s.opt 3 "data" decValue
  return { originId, statusCode, dataKind, data }

/-- What is left of a value after the wire. bsp-types/src/bt_test.rs:111-129. -/
def norm (x : BuildTargetTestResult) : BuildTargetTestResult :=
  { x with data := normData x.data }

theorem dec_enc (x : BuildTargetTestResult) : dec (canon (enc x)) = some x.norm := by
  simp only [dec, enc, structSrc_canon_obj]
  generalize hms : (skipNone "originId" Json.str x.originId ++ fld "statusCode" (encUsize x.statusCode) ++ skipNone "dataKind" Json.str x.dataKind ++ skipNone "data" Value.json x.data : Members) = ms
  have h0 : (Src.map (canonMembers ms [])).opt 0 "originId" decStr = some x.originId := by
    have := opt_canon_skip (k := "originId") (ms := ms) (dec := decStr) (enc := Json.str) (o := x.originId) (n := Option.map _root_.id) 0 (by subst hms; simp [lookupLast_append, lookupLast_fld, lookupLast_skipNone, lookupLast_skipIf]) rfl (decOpt_canon (n := _root_.id) (by simp) dec_str)
    simpa using this
  have h1 : (Src.map (canonMembers ms [])).req 1 "statusCode" decUsize = some (x.statusCode) :=
    req_canon (j := encUsize x.statusCode) 1 (by subst hms; simp [lookupLast_append, lookupLast_fld, lookupLast_skipNone, lookupLast_skipIf]) (dec_usize x.statusCode)
  have h2 : (Src.map (canonMembers ms [])).opt 2 "dataKind" decStr = some x.dataKind := by
    have := opt_canon_skip (k := "dataKind") (ms := ms) (dec := decStr) (enc := Json.str) (o := x.dataKind) (n := Option.map _root_.id) 2 (by subst hms; simp [lookupLast_append, lookupLast_fld, lookupLast_skipNone, lookupLast_skipIf]) rfl (decOpt_canon (n := _root_.id) (by simp) dec_str)
    simpa using this
  have h3 : (Src.map (canonMembers ms [])).opt 3 "data" decValue = some (normData x.data) :=
    opt_canon_skip (enc := Value.json) (o := x.data) (n := normData) 3 (by subst hms; simp [lookupLast_append, lookupLast_fld, lookupLast_skipNone, lookupLast_skipIf]) rfl decOpt_value
  exact (bind_of_some rfl).trans ((bind_of_some h0).trans ((bind_of_some h1).trans ((bind_of_some h2).trans (bind_of_some h3))))

theorem dec_congr {a b : Members} (h : SameOn fields a b) : dec (.obj a) = dec (.obj b) := by
  have h0 : List.lookup "originId" a = List.lookup "originId" b := h.lookup (by simp [fields])
  have h1 : List.lookup "statusCode" a = List.lookup "statusCode" b := h.lookup (by simp [fields])
  have h2 : List.lookup "dataKind" a = List.lookup "dataKind" b := h.lookup (by simp [fields])
  have h3 : List.lookup "data" a = List.lookup "data" b := h.lookup (by simp [fields])
  simp only [dec, structSrc, h.dup]
  split
  · rfl
  · simp only [Option.bind_eq_bind, Option.bind_some, Src.req, Src.opt, Src.dflt, Src.get, h0, h1, h2, h3]

theorem dec_absent_originId {ms : Members} (h : List.lookup "originId" ms = none) :
    dec (.obj ms) = dec (.obj (("originId", .null) :: ms)) := by
  simp only [dec, structSrc, dupKnown_cons fields _ _ h]
  split
  · rfl
  · simp [Src.req, Src.opt, Src.dflt, Src.get, lookup_cons', h, decOpt]

theorem dec_missing_statusCode {ms : Members} (h : List.lookup "statusCode" ms = none) :
    dec (.obj ms) = none := by
  simp only [dec, structSrc]
  split
  · rfl
  · simp [Src.req, Src.get, h]

theorem dec_absent_dataKind {ms : Members} (h : List.lookup "dataKind" ms = none) :
    dec (.obj ms) = dec (.obj (("dataKind", .null) :: ms)) := by
  simp only [dec, structSrc, dupKnown_cons fields _ _ h]
  split
  · rfl
  · simp [Src.req, Src.opt, Src.dflt, Src.get, lookup_cons', h, decOpt]

theorem dec_absent_data {ms : Members} (h : List.lookup "data" ms = none) :
    dec (.obj ms) = dec (.obj (("data", .null) :: ms)) := by
  simp only [dec, structSrc, dupKnown_cons fields _ _ h]
  split
  · rfl
  · simp [Src.req, Src.opt, Src.dflt, Src.get, lookup_cons', h, decOpt]

end BuildTargetTestResult

/-! ### BuildTargetRunResult -/

/-- bsp-types/src/bt_run.rs:110-119. -/
structure BuildTargetRunResult where
  originId : Option String
  statusCode : UInt64

namespace BuildTargetRunResult

/-- Wire names of the fields, in declaration order. bsp-types/src/bt_run.rs:110-119. -/
def fields : List String := ["originId", "statusCode"]

/-- Derived `Serialize`. bsp-types/src/bt_run.rs:110-119. -/
def enc (x : BuildTargetRunResult) : Json :=
  .obj (skipNone "originId" Json.str x.originId
    ++ fld "statusCode" (encUsize x.statusCode))

/-- Derived `Deserialize`. bsp-types/src/bt_run.rs:110-119. -/
def dec (j : Json) : Option BuildTargetRunResult := do
  let s ← structSrc fields j
  let originId ← s.opt 0 "originId" decStr
  let statusCode ← s.req 1 "statusCode" decUsize
  return { originId, statusCode }

theorem dec_enc (x : BuildTargetRunResult) : dec (canon (enc x)) = some x := by
  simp only [dec, enc, structSrc_canon_obj]
  generalize hms : (skipNone "originId" Json.str x.originId ++ fld "statusCode" (encUsize x.statusCode) : Members) = ms
  have h0 : (Src.map (canonMembers ms [])).opt 0 "originId" decStr = some x.originId := by
    have := opt_canon_skip (k := "originId") (ms := ms) (dec := decStr) (enc := Json.str) (o := x.originId) (n := Option.map _root_.id) 0 (by subst hms; simp [lookupLast_append, lookupLast_fld, lookupLast_skipNone, lookupLast_skipIf]) rfl (decOpt_canon (n := _root_.id) (by simp) dec_str)
    simpa using this
  have h1 : (Src.map (canonMembers ms [])).req 1 "statusCode" decUsize = some (x.statusCode) :=
    req_canon (j := encUsize x.statusCode) 1 (by subst hms; simp [lookupLast_append, lookupLast_fld, lookupLast_skipNone, lookupLast_skipIf]) (dec_usize x.statusCode)
  exact (bind_of_some rfl).trans ((bind_of_some h0).trans (bind_of_some h1))

theorem dec_congr {a b : Members} (h : SameOn fields a b) : dec (.obj a) = dec (.obj b) := by
  have h0 : List.lookup "originId" a = List.lookup "originId" b := h.lookup (by simp [fields])
  have h1 : List.lookup "statusCode" a = List.lookup "statusCode" b := h.lookup (by simp [fields])
  simp only [dec, structSrc, h.dup]
  split
  · rfl
  · simp only [Option.bind_eq_bind, Option.bind_some, Src.req, Src.opt, Src.dflt, Src.get, h0, h1]

theorem dec_absent_originId {ms : Members} (h : List.lookup "originId" ms = none) :
    dec (.obj ms) = dec (.obj (("originId", .null) :: ms)) := by
  simp only [dec, structSrc, dupKnown_cons fields _ _ h]
  split
  · rfl
  · simp [Src.req, Src.opt, Src.dflt, Src.get, lookup_cons', h, decOpt]

theorem dec_missing_statusCode {ms : Members} (h : List.lookup "statusCode" ms = none) :
    dec (.obj ms) = none := by
  simp only [dec, structSrc]
  split
  · rfl
  · simp [Src.req, Src.get, h]

end BuildTargetRunResult

/-! ### Resources -/

/-- bsp-types/src/bt_resources.rs:58-63. -/
structure Resources [Ext] where
  target : BuildTargetIdentifier
  resources : List String

namespace Resources

/-- Wire names of the fields, in declaration order. bsp-types/src/bt_resources.rs:58-63. -/
def fields : List String := ["target", "resources"]

/-- Derived `Serialize`. bsp-types/src/bt_resources.rs:58-63. -/
def enc [Ext] (x : Resources) : Json :=
  .obj (fld "target" (BuildTargetIdentifier.enc x.target)
    ++ fld "resources" (encList Json.str x.resources))

/-- Derived `Deserialize`. bsp-types/src/bt_resources.rs:58-63. -/
def dec [Ext] (j : Json) : Option Resources := do
  let s ← structSrc fields j
  let target ← s.req 0 "target" BuildTargetIdentifier.dec
  let resources ← s.req 1 "resources" (decList decStr)
  return { target, resources }

theorem dec_enc [LawfulExt] (x : Resources) : dec (canon (enc x)) = some x := by
  simp only [dec, enc, structSrc_canon_obj]
  generalize hms : (fld "target" (BuildTargetIdentifier.enc x.target) ++ fld "resources" (encList Json.str x.resources) : Members) = ms
  have h0 : (Src.map (canonMembers ms [])).req 0 "target" BuildTargetIdentifier.dec = some (x.target) :=
    req_canon (j := BuildTargetIdentifier.enc x.target) 0 (by subst hms; simp [lookupLast_append, lookupLast_fld, lookupLast_skipNone, lookupLast_skipIf]) (BuildTargetIdentifier.dec_enc x.target)
  have h1 : (Src.map (canonMembers ms [])).req 1 "resources" (decList decStr) = some (x.resources) :=
    req_canon (j := encList Json.str x.resources) 1 (by subst hms; simp [lookupLast_append, lookupLast_fld, lookupLast_skipNone, lookupLast_skipIf]) (dec_list_id dec_str x.resources)
  exact (bind_of_some rfl).trans ((bind_of_some h0).trans (bind_of_some h1))

theorem dec_congr [Ext] {a b : Members} (h : SameOn fields a b) : dec (.obj a) = dec (.obj b) := by
  have h0 : List.lookup "target" a = List.lookup "target" b := h.lookup (by simp [fields])
  have h1 : List.lookup "resources" a = List.lookup "resources" b := h.lookup (by simp [fields])
  simp only [dec, structSrc, h.dup]
  split
  · rfl
  · simp only [Option.bind_eq_bind, Option.bind_some, Src.req, Src.opt, Src.dflt, Src.get, h0, h1]

theorem dec_missing_target [Ext] {ms : Members} (h : List.lookup "target" ms = none) :
    dec (.obj ms) = none := by
  simp only [dec, structSrc]
  split
  · rfl
  · simp [Src.req, Src.get, h]

theorem dec_missing_resources [Ext] {ms : Members} (h : List.lookup "resources" ms = none) :
    dec (.obj ms) = none := by
  simp only [dec, structSrc]
  split
  · rfl
  · simp [Src.req, Src.get, h]

end Resources

/-! ### BuildTargetResourcesResult -/

/-- bsp-types/src/bt_resources.rs:37-40. -/
structure BuildTargetResourcesResult [Ext] where
  items : List Resources

namespace BuildTargetResourcesResult

/-- Wire names of the fields, in declaration order. bsp-types/src/bt_resources.rs:37-40. -/
def fields : List String := ["items"]

/-- Derived `Serialize`. bsp-types/src/bt_resources.rs:37-40. -/
def enc [Ext] (x : BuildTargetResourcesResult) : Json :=
  .obj (fld "items" (encList Resources.enc x.items))

/-- Derived `Deserialize`. bsp-types/src/bt_resources.rs:37-40. -/
def dec [Ext] (j : Json) : Option BuildTargetResourcesResult := do
  let s ← structSrc fields j
  let items ← s.req 0 "items" (decList Resources.dec)
  return { items }

theorem dec_enc [LawfulExt] (x : BuildTargetResourcesResult) : dec (canon (enc x)) = some x := by
  simp only [dec, enc, structSrc_canon_obj]
  generalize hms : (fld "items" (encList Resources.enc x.items) : Members) = ms
  have h0 : (Src.map (canonMembers ms [])).req 0 "items" (decList Resources.dec) = some (x.items) :=
    req_canon (j := encList Resources.enc x.items) 0 (by subst hms; simp [lookupLast_append, lookupLast_fld, lookupLast_skipNone, lookupLast_skipIf]) (dec_list_id Resources.dec_enc x.items)
  exact (bind_of_some rfl).trans (bind_of_some h0)

theorem dec_congr [Ext] {a b : Members} (h : SameOn fields a b) : dec (.obj a) = dec (.obj b) := by
  have h0 : List.lookup "items" a = List.lookup "items" b := h.lookup (by simp [fields])
  simp only [dec, structSrc, h.dup]
  split
  · rfl
  · simp only [Option.bind_eq_bind, Option.bind_some, Src.req, Src.opt, Src.dflt, Src.get, h0]

theorem dec_missing_items [Ext] {ms : Members} (h : List.lookup "items" ms = none) :
    dec (.obj ms) = none := by
  simp only [dec, structSrc]
  split
  · rfl
  · simp [Src.req, Src.get, h]

end BuildTargetResourcesResult

/-! ### DependencyModule -/

/-- bsp-types/src/bt_dependency_modules.rs:83-98. -/
structure DependencyModule where
  name : String
  version : String
  dataKind : Option String
  data : Option Value

namespace DependencyModule

/-- Wire names of the fields, in declaration order. bsp-types/src/bt_dependency_modules.rs:83-98. -/
def fields : List String := ["name", "version", "dataKind", "data"]

/-- Derived `Serialize`. bsp-types/src/bt_dependency_modules.rs:83-98. -/
def enc (x : DependencyModule) : Json :=
  .obj (fld "name" (Json.str x.name)
    ++ fld "version" (Json.str x.version)
    ++ fld "dataKind" (encOpt Json.str x.dataKind)
    ++ fld "data" (encOpt Value.json x.data))

/-- Derived `Deserialize`. bsp-types/src/bt_dependency_modules.rs:83-98. -/
def dec (j : Json) : Option DependencyModule := do
  let s ← structSrc fields j
  let name ← s.req 0 "name" decStr
  let version ← s.req 1 "version" decStr
  let dataKind ← s.opt 2 "dataKind" decStr
  let data ← s.opt 3 "data" decValue
  return { name, version, dataKind, data }

/-- What is left of a value after the wire. bsp-types/src/bt_dependency_modules.rs:83-98. -/
def norm (x : DependencyModule) : DependencyModule :=
  { x with data := normData x.data }

theorem dec_enc (x : DependencyModule) : dec (canon (enc x)) = some x.norm := by
  simp only [dec, enc, structSrc_canon_obj]
  generalize hms : (fld "name" (Json.str x.name) ++ fld "version" (Json.str x.version) ++ fld "dataKind" (encOpt Json.str x.dataKind) ++ fld "data" (encOpt Value.json x.data) : Members) = ms
  have h0 : (Src.map (canonMembers ms [])).req 0 "name" decStr = some (x.name) :=
    req_canon (j := Json.str x.name) 0 (by subst hms; simp [lookupLast_append, lookupLast_fld, lookupLast_skipNone, lookupLast_skipIf]) (dec_str x.name)
  have h1 : (Src.map (canonMembers ms [])).req 1 "version" decStr = some (x.version) :=
    req_canon (j := Json.str x.version) 1 (by subst hms; simp [lookupLast_append, lookupLast_fld, lookupLast_skipNone, lookupLast_skipIf]) (dec_str x.version)
  have h2 : (Src.map (canonMembers ms [])).opt 2 "dataKind" decStr = some x.dataKind := by
    have := opt_canon_keep (k := "dataKind") (ms := ms) (dec := decStr) (enc := Json.str) (o := x.dataKind) (n := Option.map _root_.id) 2 (by subst hms; simp [lookupLast_append, lookupLast_fld, lookupLast_skipNone, lookupLast_skipIf]) rfl (decOpt_canon (n := _root_.id) (by simp) dec_str)
    simpa using this
  have h3 : (Src.map (canonMembers ms [])).opt 3 "data" decValue = some (normData x.data) :=
    opt_canon_keep (enc := Value.json) (o := x.data) (n := normData) 3 (by subst hms; simp [lookupLast_append, lookupLast_fld, lookupLast_skipNone, lookupLast_skipIf]) rfl decOpt_value
  exact (bind_of_some rfl).trans ((bind_of_some h0).trans ((bind_of_some h1).trans ((bind_of_some h2).trans (bind_of_some h3))))

theorem dec_congr {a b : Members} (h : SameOn fields a b) : dec (.obj a) = dec (.obj b) := by
  have h0 : List.lookup "name" a = List.lookup "name" b := h.lookup (by simp [fields])
  have h1 : List.lookup "version" a = List.lookup "version" b := h.lookup (by simp [fields])
  have h2 : List.lookup "dataKind" a = List.lookup "dataKind" b := h.lookup (by simp [fields])
  have h3 : List.lookup "data" a = List.lookup "data" b := h.lookup (by simp [fields])
  simp only [dec, structSrc, h.dup]
  split
  · rfl
  · simp only [Option.bind_eq_bind, Option.bind_some, Src.req, Src.opt, Src.dflt, Src.get, h0, h1, h2, h3]

theorem dec_missing_name {ms : Members} (h : List.lookup "name" ms = none) :
    dec (.obj ms) = none := by
  simp only [dec, structSrc]
  split
  · rfl
  · simp [Src.req, Src.get, h]

theorem dec_missing_version {ms : Members} (h : List.lookup "version" ms = none) :
    dec (.obj ms) = none := by
  simp only [dec, structSrc]
  split
  · rfl
  · simp [Src.req, Src.get, h]

theorem dec_absent_dataKind {ms : Members} (h : List.lookup "dataKind" ms = none) :
    dec (.obj ms) = dec (.obj (("dataKind", .null) :: ms)) := by
  simp only [dec, structSrc, dupKnown_cons fields _ _ h]
  split
  · rfl
  · simp [Src.req, Src.opt, Src.dflt, Src.get, lookup_cons', h, decOpt]

theorem dec_absent_data {ms : Members} (h : List.lookup "data" ms = none) :
    dec (.obj ms) = dec (.obj (("data", .null) :: ms)) := by
  simp only [dec, structSrc, dupKnown_cons fields _ _ h]
  split
  · rfl
  · simp [Src.req, Src.opt, Src.dflt, Src.get, lookup_cons', h, decOpt]

end DependencyModule

/-! ### DependencyModulesItem -/

/-- bsp-types/src/bt_dependency_modules.rs:56-60. -/
structure DependencyModulesItem [Ext] where
  target : BuildTargetIdentifier
  modules : List DependencyModule

namespace DependencyModulesItem

/-- Wire names of the fields, in declaration order. bsp-types/src/bt_dependency_modules.rs:56-60. -/
def fields : List String := ["target", "modules"]

/-- Derived `Serialize`. bsp-types/src/bt_dependency_modules.rs:56-60. -/
def enc [Ext] (x : DependencyModulesItem) : Json :=
  .obj (fld "target" (BuildTargetIdentifier.enc x.target)
    ++ fld "modules" (encList DependencyModule.enc x.modules))

/-- Derived `Deserialize`. bsp-types/src/bt_dependency_modules.rs:56-60. -/
def dec [Ext] (j : Json) : Option DependencyModulesItem := do
  let s ← structSrc fields j
  let target ← s.req 0 "target" BuildTargetIdentifier.dec
  let modules ← s.req 1 "modules" (decList DependencyModule.dec)
  return { target, modules }

/-- What is left of a value after the wire. bsp-types/src/bt_dependency_modules.rs:56-60. -/
def norm [Ext] (x : DependencyModulesItem) : DependencyModulesItem :=
  { x with modules := x.modules.map DependencyModule.norm }

theorem dec_enc [LawfulExt] (x : DependencyModulesItem) : dec (canon (enc x)) = some x.norm := by
  simp only [dec, enc, structSrc_canon_obj]
  generalize hms : (fld "target" (BuildTargetIdentifier.enc x.target) ++ fld "modules" (encList DependencyModule.enc x.modules) : Members) = ms
  have h0 : (Src.map (canonMembers ms [])).req 0 "target" BuildTargetIdentifier.dec = some (x.target) :=
    req_canon (j := BuildTargetIdentifier.enc x.target) 0 (by subst hms; simp [lookupLast_append, lookupLast_fld, lookupLast_skipNone, lookupLast_skipIf]) (BuildTargetIdentifier.dec_enc x.target)
  have h1 : (Src.map (canonMembers ms [])).req 1 "modules" (decList DependencyModule.dec) = some (x.modules.map DependencyModule.norm) :=
    req_canon (j := encList DependencyModule.enc x.modules) 1 (by subst hms; simp [lookupLast_append, lookupLast_fld, lookupLast_skipNone, lookupLast_skipIf]) (dec_list DependencyModule.dec_enc x.modules)
  exact (bind_of_some rfl).trans ((bind_of_some h0).trans (bind_of_some h1))

theorem dec_congr [Ext] {a b : Members} (h : SameOn fields a b) : dec (.obj a) = dec (.obj b) := by
  have h0 : List.lookup "target" a = List.lookup "target" b := h.lookup (by simp [fields])
  have h1 : List.lookup "modules" a = List.lookup "modules" b := h.lookup (by simp [fields])
  simp only [dec, structSrc, h.dup]
  split
  · rfl
  · simp only [Option.bind_eq_bind, Option.bind_some, Src.req, Src.opt, Src.dflt, Src.get, h0, h1]

theorem dec_missing_target [Ext] {ms : Members} (h : List.lookup "target" ms = none) :
    dec (.obj ms) = none := by
  simp only [dec, structSrc]
  split
  · rfl
  · simp [Src.req, Src.get, h]

theorem dec_missing_modules [Ext] {ms : Members} (h : List.lookup "modules" ms = none) :
    dec (.obj ms) = none := by
  simp only [dec, structSrc]
  split
  · rfl
  · simp [Src.req, Src.get, h]

end DependencyModulesItem

/-! ### BuildTargetDependencyModulesResult -/

/-- bsp-types/src/bt_dependency_modules.rs:35-38. -/
structure BuildTargetDependencyModulesResult [Ext] where
  items : List DependencyModulesItem

namespace BuildTargetDependencyModulesResult

/-- Wire names of the fields, in declaration order. bsp-types/src/bt_dependency_modules.rs:35-38. -/
def fields : List String := ["items"]

/-- Derived `Serialize`. bsp-types/src/bt_dependency_modules.rs:35-38. -/
def enc [Ext] (x : BuildTargetDependencyModulesResult) : Json :=
  .obj (fld "items" (encList DependencyModulesItem.enc x.items))

/-- Derived `Deserialize`. bsp-types/src/bt_dependency_modules.rs:35-38. -/
def dec [Ext] (j : Json) : Option BuildTargetDependencyModulesResult := do
  let s ← structSrc fields j
  let items ← s.req 0 "items" (decList DependencyModulesItem.dec)
  return { items }

/-- What is left of a value after the wire. bsp-types/src/bt_dependency_modules.rs:35-38. -/
def norm [Ext] (x : BuildTargetDependencyModulesResult) : BuildTargetDependencyModulesResult :=
  { x with items := x.items.map DependencyModulesItem.norm }

theorem dec_enc [LawfulExt] (x : BuildTargetDependencyModulesResult) : dec (canon (enc x)) = some x.norm := by
  simp only [dec, enc, structSrc_canon_obj]
  generalize hms : (fld "items" (encList DependencyModulesItem.enc x.items) : Members) = ms
  have h0 : (Src.map (canonMembers ms [])).req 0 "items" (decList DependencyModulesItem.dec) = some (x.items.map DependencyModulesItem.norm) :=
    req_canon (j := encList DependencyModulesItem.enc x.items) 0 (by subst hms; simp [lookupLast_append, lookupLast_fld, lookupLast_skipNone, lookupLast_skipIf]) (dec_list DependencyModulesItem.dec_enc x.items)
  exact (bind_of_some rfl).trans (bind_of_some h0)

theorem dec_congr [Ext] {a b : Members} (h : SameOn fields a b) : dec (.obj a) = dec (.obj b) := by
  have h0 : List.lookup "items" a = List.lookup "items" b := h.lookup (by simp [fields])
  simp only [dec, structSrc, h.dup]
  split
  · rfl
  · simp only [Option.bind_eq_bind, Option.bind_some, Src.req, Src.opt, Src.dflt, Src.get, h0]

theorem dec_missing_items [Ext] {ms : Members} (h : List.lookup "items" ms = none) :
    dec (.obj ms) = none := by
  simp only [dec, structSrc]
  split
  · rfl
  · simp [Src.req, Src.get, h]

end BuildTargetDependencyModulesResult

/-! ### BuildTargetCleanCacheResult -/

/-- bsp-types/src/bt_clean_cache.rs:40-47. -/
structure BuildTargetCleanCacheResult where
  message : Option String
  cleaned : Bool

namespace BuildTargetCleanCacheResult

/-- Wire names of the fields, in declaration order. bsp-types/src/bt_clean_cache.rs:40-47. -/
def fields : List String := ["message", "cleaned"]

/-- Derived `Serialize`. bsp-types/src/bt_clean_cache.rs:40-47. -/
def enc (x : BuildTargetCleanCacheResult) : Json :=
  .obj (skipNone "message" Json.str x.message
    ++ fld "cleaned" (Json.bool x.cleaned))

/-- Derived `Deserialize`. bsp-types/src/bt_clean_cache.rs:40-47. -/
def dec (j : Json) : Option BuildTargetCleanCacheResult := do
  let s ← structSrc fields j
  let message ← s.opt 0 "message" decStr
  let cleaned ← s.req 1 "cleaned" decBool
  return { message, cleaned }

theorem dec_enc (x : BuildTargetCleanCacheResult) : dec (canon (enc x)) = some x := by
  simp only [dec, enc, structSrc_canon_obj]
  generalize hms : (skipNone "message" Json.str x.message ++ fld "cleaned" (Json.bool x.cleaned) : Members) = ms
  have h0 : (Src.map (canonMembers ms [])).opt 0 "message" decStr = some x.message := by
    have := opt_canon_skip (k := "message") (ms := ms) (dec := decStr) (enc := Json.str) (o := x.message) (n := Option.map _root_.id) 0 (by subst hms; simp [lookupLast_append, lookupLast_fld, lookupLast_skipNone, lookupLast_skipIf]) rfl (decOpt_canon (n := _root_.id) (by simp) dec_str)
    simpa using this
  have h1 : (Src.map (canonMembers ms [])).req 1 "cleaned" decBool = some (x.cleaned) :=
    req_canon (j := Json.bool x.cleaned) 1 (by subst hms; simp [lookupLast_append, lookupLast_fld, lookupLast_skipNone, lookupLast_skipIf]) (dec_bool x.cleaned)
  exact (bind_of_some rfl).trans ((bind_of_some h0).trans (bind_of_some h1))

theorem dec_congr {a b : Members} (h : SameOn fields a b) : dec (.obj a) = dec (.obj b) := by
  have h0 : List.lookup "message" a = List.lookup "message" b := h.lookup (by simp [fields])
  have h1 : List.lookup "cleaned" a = List.lookup "cleaned" b := h.lookup (by simp [fields])
  simp only [dec, structSrc, h.dup]
  split
  · rfl
  · simp only [Option.bind_eq_bind, Option.bind_some, Src.req, Src.opt, Src.dflt, Src.get, h0, h1]

theorem dec_absent_message {ms : Members} (h : List.lookup "message" ms = none) :
    dec (.obj ms) = dec (.obj (("message", .null) :: ms)) := by
  simp only [dec, structSrc, dupKnown_cons fields _ _ h]
  split
  · rfl
  · simp [Src.req, Src.opt, Src.dflt, Src.get, lookup_cons', h, decOpt]

theorem dec_missing_cleaned {ms : Members} (h : List.lookup "cleaned" ms = none) :
    dec (.obj ms) = none := by
  simp only [dec, structSrc]
  split
  · rfl
  · simp [Src.req, Src.get, h]

end BuildTargetCleanCacheResult

/-! ### BuildTargetInverseSourcesResult -/

/-- bsp-types/src/bt_inverse_sources.rs:32-35. -/
structure BuildTargetInverseSourcesResult [Ext] where
  targets : List BuildTargetIdentifier

namespace BuildTargetInverseSourcesResult

/-- Wire names of the fields, in declaration order. bsp-types/src/bt_inverse_sources.rs:32-35. -/
def fields : List String := ["targets"]

/-- Derived `Serialize`. bsp-types/src/bt_inverse_sources.rs:32-35. -/
def enc [Ext] (x : BuildTargetInverseSourcesResult) : Json :=
  .obj (fld "targets" (encList BuildTargetIdentifier.enc x.targets))

/-- Derived `Deserialize`. bsp-types/src/bt_inverse_sources.rs:32-35. -/
def dec [Ext] (j : Json) : Option BuildTargetInverseSourcesResult := do
  let s ← structSrc fields j
  let targets ← s.req 0 "targets" (decList BuildTargetIdentifier.dec)
  return { targets }

theorem dec_enc [LawfulExt] (x : BuildTargetInverseSourcesResult) : dec (canon (enc x)) = some x := by
  simp only [dec, enc, structSrc_canon_obj]
  generalize hms : (fld "targets" (encList BuildTargetIdentifier.enc x.targets) : Members) = ms
  have h0 : (Src.map (canonMembers ms [])).req 0 "targets" (decList BuildTargetIdentifier.dec) = some (x.targets) :=
    req_canon (j := encList BuildTargetIdentifier.enc x.targets) 0 (by subst hms; simp [lookupLast_append, lookupLast_fld, lookupLast_skipNone, lookupLast_skipIf]) (dec_list_id BuildTargetIdentifier.dec_enc x.targets)
  exact (bind_of_some rfl).trans (bind_of_some h0)

theorem dec_congr [Ext] {a b : Members} (h : SameOn fields a b) : dec (.obj a) = dec (.obj b) := by
  have h0 : List.lookup "targets" a = List.lookup "targets" b := h.lookup (by simp [fields])
  simp only [dec, structSrc, h.dup]
  split
  · rfl
  · simp only [Option.bind_eq_bind, Option.bind_some, Src.req, Src.opt, Src.dflt, Src.get, h0]

theorem dec_missing_targets [Ext] {ms : Members} (h : List.lookup "targets" ms = none) :
    dec (.obj ms) = none := by
  simp only [dec, structSrc]
  split
  · rfl
  · simp [Src.req, Src.get, h]

end BuildTargetInverseSourcesResult

/-! ### DependencySourcesItem -/

/-- bsp-types/src/bt_dependency_sources.rs:40-47. -/
structure DependencySourcesItem [Ext] where
  target : BuildTargetIdentifier
  sources : List String

namespace DependencySourcesItem

/-- Wire names of the fields, in declaration order. bsp-types/src/bt_dependency_sources.rs:40-47. -/
def fields : List String := ["target", "sources"]

/-- Derived `Serialize`. bsp-types/src/bt_dependency_sources.rs:40-47. -/
def enc [Ext] (x : DependencySourcesItem) : Json :=
  .obj (fld "target" (BuildTargetIdentifier.enc x.target)
    ++ fld "sources" (encList Json.str x.sources))

/-- Derived `Deserialize`. bsp-types/src/bt_dependency_sources.rs:40-47. -/
def dec [Ext] (j : Json) : Option DependencySourcesItem := do
  let s ← structSrc fields j
  let target ← s.req 0 "target" BuildTargetIdentifier.dec
  let sources ← s.req 1 "sources" (decList decStr)
  return { target, sources }

theorem dec_enc [LawfulExt] (x : DependencySourcesItem) : dec (canon (enc x)) = some x := by
  simp only [dec, enc, structSrc_canon_obj]
  generalize hms : (fld "target" (BuildTargetIdentifier.enc x.target) ++ fld "sources" (encList Json.str x.sources) : Members) = ms
  have h0 : (Src.map (canonMembers ms [])).req 0 "target" BuildTargetIdentifier.dec = some (x.target) :=
    req_canon (j := BuildTargetIdentifier.enc x.target) 0 (by subst hms; simp [lookupLast_append, lookupLast_fld, lookupLast_skipNone, lookupLast_skipIf]) (BuildTargetIdentifier.dec_enc x.target)
  have h1 : (Src.map (canonMembers ms [])).req 1 "sources" (decList decStr) = some (x.sources) :=
    req_canon (j := encList Json.str x.sources) 1 (by subst hms; simp [lookupLast_append, lookupLast_fld, lookupLast_skipNone, lookupLast_skipIf]) (dec_list_id dec_str x.sources)
  exact (bind_of_some rfl).trans ((bind_of_some h0).trans (bind_of_some h1))

theorem dec_congr [Ext] {a b : Members} (h : SameOn fields a b) : dec (.obj a) = dec (.obj b) := by
  have h0 : List.lookup "target" a = List.lookup "target" b := h.lookup (by simp [fields])
  have h1 : List.lookup "sources" a = List.lookup "sources" b := h.lookup (by simp [fields])
  simp only [dec, structSrc, h.dup]
  split
  · rfl
  · simp only [Option.bind_eq_bind, Option.bind_some, Src.req, Src.opt, Src.dflt, Src.get, h0, h1]

theorem dec_missing_target [Ext] {ms : Members} (h : List.lookup "target" ms = none) :
    dec (.obj ms) = none := by
  simp only [dec, structSrc]
  split
  · rfl
  · simp [Src.req, Src.get, h]

theorem dec_missing_sources [Ext] {ms : Members} (h : List.lookup "sources" ms = none) :
    dec (.obj ms) = none := by
  simp only [dec, structSrc]
  split
  · rfl
  · simp [Src.req, Src.get, h]

end DependencySourcesItem

/-! ### BuildTargetDependencySourcesResult -/

/-- bsp-types/src/bt_dependency_sources.rs:35-38. -/
structure BuildTargetDependencySourcesResult [Ext] where
  items : List DependencySourcesItem

namespace BuildTargetDependencySourcesResult

/-- Wire names of the fields, in declaration order. bsp-types/src/bt_dependency_sources.rs:35-38. -/
def fields : List String := ["items"]

/-- Derived `Serialize`. bsp-types/src/bt_dependency_sources.rs:35-38. -/
def enc [Ext] (x : BuildTargetDependencySourcesResult) : Json :=
  .obj (fld "items" (encList DependencySourcesItem.enc x.items))

/-- Derived `Deserialize`. bsp-types/src/bt_dependency_sources.rs:35-38. -/
def dec [Ext] (j : Json) : Option BuildTargetDependencySourcesResult := do
  let s ← structSrc fields j
  let items ← s.req 0 "items" (decList DependencySourcesItem.dec)
  return { items }

theorem dec_enc [LawfulExt] (x : BuildTargetDependencySourcesResult) : dec (canon (enc x)) = some x := by
  simp only [dec, enc, structSrc_canon_obj]
  generalize hms : (fld "items" (encList DependencySourcesItem.enc x.items) : Members) = ms
  have h0 : (Src.map (canonMembers ms [])).req 0 "items" (decList DependencySourcesItem.dec) = some (x.items) :=
    req_canon (j := encList DependencySourcesItem.enc x.items) 0 (by subst hms; simp [lookupLast_append, lookupLast_fld, lookupLast_skipNone, lookupLast_skipIf]) (dec_list_id DependencySourcesItem.dec_enc x.items)
  exact (bind_of_some rfl).trans (bind_of_some h0)

theorem dec_congr [Ext] {a b : Members} (h : SameOn fields a b) : dec (.obj a) = dec (.obj b) := by
  have h0 : List.lookup "items" a = List.lookup "items" b := h.lookup (by simp [fields])
  simp only [dec, structSrc, h.dup]
  split
  · rfl
  · simp only [Option.bind_eq_bind, Option.bind_some, Src.req, Src.opt, Src.dflt, Src.get, h0]

theorem dec_missing_items [Ext] {ms : Members} (h : List.lookup "items" ms = none) :
    dec (.obj ms) = none := by
  simp only [dec, structSrc]
  split
  · rfl
  · simp [Src.req, Src.get, h]

end BuildTargetDependencySourcesResult

end Bsp
