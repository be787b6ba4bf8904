/-
Properties of the payload types: round trip (C29-C31), unknown members and order (C32), required and
optional members (C33), omission (C34), integer widths (C35), enumerations (C36-C38).

On the wire a payload is the `params` / `result` member of a message; the code first turns it into a
`serde_json::Value` and decodes that (request.rs:442-455, notification.rs:250-258), so the statements
are about `p.dec (canon j)` for the JSON tree `j` that was received.
-/
import Verif.Payload
import Verif.Props.Message

namespace Bsp
open Json
open Spec (keys)

namespace Spec
/-- The request parameter types. -/
def requestPayloads : List Payload :=
  [.initializeBuild, .buildTargetCleanCache, .buildTargetCompile, .buildTargetDependencyModules,
   .buildTargetDependencySources, .buildTargetResources, .buildTargetRun, .buildTargetSources,
   .buildTargetTest, .debugSessionStart, .textDocumentInverseSources]
/-- The notification payload types. -/
def notificationPayloads : List Payload :=
  [.showMessage, .logMessage, .publishDiagnostics, .taskStart, .taskFinish, .taskProgress,
   .buildTargetDidChange]
/-- The result types. -/
def resultPayloads : List Payload :=
  [.initializeBuildResult, .workspaceBuildTargetsResult, .debugSessionStartResult,
   .buildTargetSourcesResult, .buildTargetCompileResult, .buildTargetTestResult,
   .buildTargetRunResult, .buildTargetResourcesResult, .buildTargetDependencyModulesResult,
   .buildTargetCleanCacheResult, .buildTargetInverseSourcesResult,
   .buildTargetDependencySourcesResult]
end Spec

/-! ### C29-C31 round trip -/

/-- C29: request params come back from the wire, unchanged if no present datum is null, in general
up to `norm` (a null datum becomes absent). -/
theorem C29_request_payloads [LawfulExt] (p : Payload) (_ : p ∈ Spec.requestPayloads)
    (x : p.Carrier) :
    (p.Plain x → p.dec (canon (p.enc x)) = some x) ∧
    p.dec (canon (p.enc x)) = some (p.norm x) :=
  ⟨fun h => by rw [p.dec_enc, p.norm_plain x h], p.dec_enc x⟩

/-- C30: likewise notification payloads. -/
theorem C30_notification_payloads [LawfulExt] (p : Payload) (_ : p ∈ Spec.notificationPayloads)
    (x : p.Carrier) :
    (p.Plain x → p.dec (canon (p.enc x)) = some x) ∧
    p.dec (canon (p.enc x)) = some (p.norm x) :=
  ⟨fun h => by rw [p.dec_enc, p.norm_plain x h], p.dec_enc x⟩

/-- C31: likewise results. -/
theorem C31_result_payloads [LawfulExt] (p : Payload) (_ : p ∈ Spec.resultPayloads)
    (x : p.Carrier) :
    (p.Plain x → p.dec (canon (p.enc x)) = some x) ∧
    p.dec (canon (p.enc x)) = some (p.norm x) :=
  ⟨fun h => by rw [p.dec_enc, p.norm_plain x h], p.dec_enc x⟩

/-- What `norm` does where it does something, spelled out: only an optional datum that is null, and
a custom kind with a reserved name, are changed; all other fields are kept. -/
theorem C29_norm [Ext] :
    (∀ x : InitializeBuild, x.norm = { x with data := if x.data = some .null then none else x.data }) ∧
    (∀ x : BuildTargetRun, x.norm = { x with data := if x.data = some .null then none else x.data }) ∧
    (∀ x : BuildTargetTest, x.norm = { x with data := if x.data = some .null then none else x.data }) := by
  have h : ∀ o : Option Value, normData o = if o = some .null then none else o := by
    intro o
    split
    · rename_i e; subst e; rfl
    · rename_i e; exact normData_plain e
  refine ⟨?_, ?_, ?_⟩ <;> intro x
  · simp only [InitializeBuild.norm, h]
  · simp only [BuildTargetRun.norm, h]
  · simp only [BuildTargetTest.norm, h]

/-- The same for the notifications: null data of an event or of a diagnostic becomes absent, a custom kind with a
reserved name becomes that kind; all else is kept. -/
theorem C30_norm [Ext] :
    (∀ x : PublishDiagnostics, x.norm = { x with diagnostics := x.diagnostics.map fun d =>
      { d with data := if d.data = some .null then none else d.data } }) ∧
    (∀ x : BuildTargetDidChange, x.norm = { x with changes := x.changes.map fun e =>
      { e with data := if e.data = some .null then none else e.data } }) ∧
    (∀ x : TaskStart, x.norm = { x with dataKind := x.dataKind.norm }) ∧
    (∀ x : TaskFinish, x.norm = { x with dataKind := x.dataKind.norm }) ∧
    (∀ x : TaskProgress, x.norm = { x with dataKind := x.dataKind.norm }) ∧
    ∀ k : TaskDataKind, k.norm = k ∨ ∃ s ∈ reservedKinds, k = .custom s ∧ k.norm.enc = .str s ∧ ∀ t, k.norm ≠ .custom t := by
  have h : ∀ o : Option Value, normData o = if o = some .null then none else o := by
    intro o
    split
    · rename_i e; subst e; rfl
    · rename_i e; exact normData_plain e
  refine ⟨fun x => ?_, fun x => ?_, fun x => rfl, fun x => rfl, fun x => rfl, fun k => ?_⟩
  · simp only [PublishDiagnostics.norm]; congr 2; funext d; simp only [Diagnostic.norm, h]
  · simp only [BuildTargetDidChange.norm]; congr 2; funext d; simp only [BuildTargetEvent.norm, h]
  · by_cases hk : ∃ s ∈ reservedKinds, k = .custom s
    · obtain ⟨s, hs, rfl⟩ := hk
      refine .inr ⟨s, hs, rfl, ?_⟩
      simp only [reservedKinds, List.mem_cons, List.not_mem_nil, or_false] at hs
      rcases hs with rfl | rfl | rfl | rfl | rfl | rfl <;> exact ⟨rfl, fun t h => by cases h⟩
    · exact .inl (TaskDataKind.norm_plain fun s hs e => hk ⟨s, hs, e⟩)

/-- The same for the results; and the types not named here, in C29_norm or in C30_norm (or contained in these) are not
changed at all. -/
theorem C31_norm [Ext] :
    (∀ x : InitializeBuildResult, x.norm = { x with data := if x.data = some .null then none else x.data }) ∧
    (∀ x : BuildTargetCompileResult, x.norm = { x with data := if x.data = some .null then none else x.data }) ∧
    (∀ x : BuildTargetTestResult, x.norm = { x with data := if x.data = some .null then none else x.data }) ∧
    (∀ x : BuildTargetDependencyModulesResult, x.norm = { x with items := x.items.map fun i =>
      { i with modules := i.modules.map fun m => { m with data := if m.data = some .null then none else m.data } } }) ∧
    ∀ (p : Payload) (x : p.Carrier), p ∉ [Payload.initializeBuild, .buildTargetRun, .buildTargetTest, .diagnostic,
      .publishDiagnostics, .taskStart, .taskFinish, .taskProgress, .buildTargetEvent, .buildTargetDidChange,
      .initializeBuildResult, .buildTargetCompileResult, .buildTargetTestResult, .dependencyModule,
      .dependencyModulesItem, .buildTargetDependencyModulesResult] → p.norm x = x := by
  have h : ∀ o : Option Value, normData o = if o = some .null then none else o := by
    intro o
    split
    · rename_i e; subst e; rfl
    · rename_i e; exact normData_plain e
  refine ⟨fun x => ?_, fun x => ?_, fun x => ?_, fun x => ?_, fun p x hp => ?_⟩
  · simp only [InitializeBuildResult.norm, h]
  · simp only [BuildTargetCompileResult.norm, h]
  · simp only [BuildTargetTestResult.norm, h]
  · simp only [BuildTargetDependencyModulesResult.norm]
    congr 2; funext i; simp only [DependencyModulesItem.norm]
    congr 2; funext m; simp only [DependencyModule.norm, h]
  · cases p <;> first | rfl | simp at hp

section
attribute [local instance] Ext.sample
/-- A sample URL. -/
def sampleUrl : Ext.Url := ⟨"file:///a b", by decide⟩

/-- Beside C29: a plain run request. -/
example : BuildTargetRun.dec (canon (BuildTargetRun.enc
      ⟨⟨sampleUrl⟩, some "o", none, some "k", some (Value.ofJson (.arr [.null]))⟩)) =
    some ⟨⟨sampleUrl⟩, some "o", none, some "k", some (Value.ofJson (.arr [.null]))⟩ :=
  (C29_request_payloads .buildTargetRun (by decide) _).1 (by
    intro h
    have := congrArg (Option.map Value.json) h
    simp at this)

/-- Beside C29: a datum that is null is not preserved. -/
example : BuildTargetRun.dec (canon (BuildTargetRun.enc ⟨⟨sampleUrl⟩, none, none, none, some .null⟩)) =
    some ⟨⟨sampleUrl⟩, none, none, none, none⟩ :=
  (C29_request_payloads .buildTargetRun (by decide) _).2

/-- Beside C30: a task start with a custom kind. -/
example : TaskStart.dec (canon (TaskStart.enc ⟨⟨"t", ["p"]⟩, some 5, "m", .custom "mine", .null⟩)) =
    some ⟨⟨"t", ["p"]⟩, some 5, "m", .custom "mine", .null⟩ :=
  (C30_notification_payloads .taskStart (by decide) _).1 (by
    intro s hs h; cases h; revert hs; decide)

/-- Beside C30: a diagnostic with everything in it; its null data is lost. -/
example : PublishDiagnostics.dec (canon (PublishDiagnostics.enc ⟨⟨sampleUrl⟩, ⟨sampleUrl⟩, none,
      [⟨⟨⟨1, 2⟩, ⟨3, 4⟩⟩, some 7, some (.string "E1"), some ⟨sampleUrl⟩, some "rustc", "m",
        some [⟨⟨sampleUrl, ⟨⟨0, 0⟩, ⟨0, 4294967295⟩⟩⟩, "here"⟩], some [1, -5], some .null⟩], true⟩)) =
    some ⟨⟨sampleUrl⟩, ⟨sampleUrl⟩, none,
      [⟨⟨⟨1, 2⟩, ⟨3, 4⟩⟩, some 7, some (.string "E1"), some ⟨sampleUrl⟩, some "rustc", "m",
        some [⟨⟨sampleUrl, ⟨⟨0, 0⟩, ⟨0, 4294967295⟩⟩⟩, "here"⟩], some [1, -5], none⟩], true⟩ :=
  (C30_notification_payloads .publishDiagnostics (by decide) _).2

/-- Beside C31: a build target with a custom tag. -/
example (s : String) : BuildTarget.dec (canon (BuildTarget.enc
      ⟨⟨sampleUrl⟩, none, some "d", [.test, .custom s], ⟨true, false, false, true⟩, ["scala"], []⟩)) =
    some ⟨⟨sampleUrl⟩, none, some "d", [.test, .custom s], ⟨true, false, false, true⟩, ["scala"], []⟩ :=
  Payload.dec_enc .buildTarget _
end

/-! ### C32 unknown members and order -/

/-- The last member named `k` (specification; `serde_json` keeps the last of several). -/
def Spec.LastIs (k : String) (ms : Members) (v : Json) : Prop :=
  ∃ a b, ms = a ++ (k, v) :: b ∧ k ∉ keys b

theorem lookupLast_none_iff (k : String) (ms : Members) : lookupLast k ms = none ↔ k ∉ keys ms := by
  induction ms with
  | nil => simp [lookupLast, keys]
  | cons m ms ih =>
    obtain ⟨k', v⟩ := m
    simp only [keys] at ih
    by_cases e : k = k'
    · simp [lookupLast, keys, e]
    · simp [lookupLast, keys, e, ih]

theorem lastIs_iff (k : String) (ms : Members) (v : Json) :
    Spec.LastIs k ms v ↔ lookupLast k ms = some v := by
  constructor
  · rintro ⟨a, b, rfl, h⟩
    rw [lookupLast_append]
    have := (lookupLast_none_iff k b).mpr h
    simp [lookupLast, this]
  · intro h
    induction ms with
    | nil => simp [lookupLast] at h
    | cons m ms ih =>
      obtain ⟨k', v'⟩ := m
      simp only [lookupLast] at h
      cases hl : lookupLast k ms with
      | some w =>
        rw [hl] at h
        simp at h
        subst h
        obtain ⟨a, b, rfl, hb⟩ := ih hl
        exact ⟨(k', v') :: a, b, rfl, hb⟩
      | none =>
        rw [hl] at h
        simp at h
        obtain ⟨rfl, rfl⟩ := h
        exact ⟨[], ms, rfl, (lookupLast_none_iff _ _).mp hl⟩

theorem named_sorted {k : String} {ms : Members} (h : sortedKeys ms = true) :
    named k ms = match List.lookup k ms with
      | none => []
      | some v => [(k, v)] := by
  have h1 := named_length_le_one (k := k) h
  rw [lookup_eq_named]
  cases hn : named k ms with
  | nil => rfl
  | cons m l =>
    rw [hn] at h1
    have : l = [] := by cases l with
      | nil => rfl
      | cons _ _ => simp at h1
    subst this
    have hk : m.1 = k := named_key (by rw [hn]; simp : m ∈ named k ms)
    obtain ⟨a, b⟩ := m
    simp at hk
    subst hk
    rfl

/-- C32: only the last member of each schema name matters. -/
theorem C32_relevant [Ext] (p : Payload) (a b : Members)
    (h : ∀ k ∈ p.names, ∀ v, Spec.LastIs k a v ↔ Spec.LastIs k b v) :
    p.dec (canon (.obj a)) = p.dec (canon (.obj b)) := by
  simp only [canon]
  apply p.dec_congr
  intro k hk
  have e : lookupLast k a = lookupLast k b := by
    apply Option.ext
    intro v
    have := h k hk v
    rwa [lastIs_iff, lastIs_iff] at this
  rw [named_sorted (isValue_canonMembers a [] rfl rfl).1,
    named_sorted (isValue_canonMembers b [] rfl rfl).1, lookup_canon, lookup_canon, e]

/-- C32: adding a member with a name outside the schema, anywhere, changes nothing. -/
theorem C32_unknown [Ext] (p : Payload) (a b : Members) (k : String) (v : Json) (hk : k ∉ p.names) :
    p.dec (canon (.obj (a ++ (k, v) :: b))) = p.dec (canon (.obj (a ++ b))) := by
  apply C32_relevant
  intro k' hk' w
  have hne : k' ≠ k := fun e => hk (e ▸ hk')
  rw [lastIs_iff, lastIs_iff, lookupLast_append, lookupLast_append]
  simp [lookupLast, hne]

theorem lookupLast_nodup {k : String} {v : Json} {ms : Members} (h : (keys ms).Nodup) :
    lookupLast k ms = some v ↔ (k, v) ∈ ms := by
  rw [← lastIs_iff]
  constructor
  · rintro ⟨a, b, rfl, _⟩; simp
  · intro hm
    obtain ⟨a, b, rfl⟩ := List.append_of_mem hm
    refine ⟨a, b, rfl, ?_⟩
    simp only [keys, List.map_append, List.map_cons] at h
    have := (List.nodup_append.mp h).2.1
    exact (List.nodup_cons.mp this).1

/-- C32: the order of the members does not matter (no name occurring twice). -/
theorem C32_order [Ext] (p : Payload) (a b : Members) (h : a.Perm b) (hn : (keys a).Nodup) :
    p.dec (canon (.obj a)) = p.dec (canon (.obj b)) := by
  apply C32_relevant
  intro k _ v
  have hb : (keys b).Nodup := (h.map _).nodup_iff.mp hn
  rw [lastIs_iff, lastIs_iff, lookupLast_nodup hn, lookupLast_nodup hb]
  exact h.mem_iff

/-- Beside C32: swapping members and adding one. -/
example [Ext] (t o : Json) :
    Payload.dec .buildTargetCompile (canon (.obj [("target", t), ("originId", o)])) =
    Payload.dec .buildTargetCompile (canon (.obj [("originId", o), ("x", .null), ("target", t)])) := by
  have := C32_unknown .buildTargetCompile [("originId", o)] [("target", t)] "x" .null (by decide)
  refine Eq.trans ?_ this.symm
  exact C32_order _ _ _ (List.Perm.swap _ _ _) (by simp [keys])

/-! ### C33 required and optional members -/

/-- C33: without a required member the payload is rejected. -/
theorem C33_required [Ext] (p : Payload) (f : Payload.FieldSpec) (hf : f ∈ p.schema)
    (hr : f.absent = none) (ms : Members) (h : f.name ∉ keys ms) :
    p.dec (canon (.obj ms)) = none := by
  simp only [canon]
  apply p.dec_missing f hf hr
  rw [lookup_canon, (lookupLast_none_iff _ _).mpr h]
  rfl

theorem schema_absent_canon' (p : Payload) : p.schema.map (·.absent.map canon) = p.schema.map (·.absent) := by
  cases p <;> simp [Payload.schema, canon, canonMembers, insertKV]

theorem schema_absent_canon (p : Payload) (f : Payload.FieldSpec) (hf : f ∈ p.schema) (d : Json)
    (hd : f.absent = some d) : canon d = d := by
  have h := schema_absent_canon' p
  rw [List.map_inj_left] at h
  have := h f hf
  rw [hd] at this
  simpa using this

/-- C33: without an optional or defaulted member it is decoded as if the default were there. -/
theorem C33_optional [Ext] (p : Payload) (f : Payload.FieldSpec) (hf : f ∈ p.schema) (d : Json)
    (hd : f.absent = some d) (a b : Members) (h : f.name ∉ keys (a ++ b)) :
    p.dec (canon (.obj (a ++ b))) = p.dec (canon (.obj (a ++ (f.name, d) :: b))) := by
  have hl : lookupLast f.name (a ++ b) = none := (lookupLast_none_iff _ _).mpr h
  have h0 : List.lookup f.name (canonMembers (a ++ b) []) = none := by rw [lookup_canon, hl]; rfl
  simp only [canon]
  rw [p.dec_absent f hf d hd h0]
  apply p.dec_congr
  intro k hk
  rw [named_sorted (isValue_canonMembers (a ++ (f.name, d) :: b) [] rfl rfl).1, lookup_canon,
    lookupLast_append]
  by_cases e : f.name = k
  · subst e
    have ha : f.name ∉ keys b := fun hb => h (by simp [keys] at hb ⊢; exact .inr hb)
    rw [named_cons_self, (lookup_none_iff _ _).mp h0]
    simp only [lookupLast, (lookupLast_none_iff _ _).mpr ha]
    simp [schema_absent_canon p f hf d hd]
  · have e' : ¬ k = f.name := fun x => e x.symm
    rw [named_cons_ne e, named_sorted (isValue_canonMembers (a ++ b) [] rfl rfl).1, lookup_canon,
      lookupLast_append]
    simp [lookupLast, e']

/-- Beside C33: a task start notification without anything is the default one; a log message without
`type` is rejected. -/
example [Ext] : Payload.dec .taskStart (canon (.obj [])) =
    some (⟨⟨"", []⟩, none, "", .none, .null⟩ : TaskStart) := by
  refine (C33_optional .taskStart ⟨"message", some (.str ""), .whenEq (.str "")⟩
    (by simp [Payload.schema]) (.str "") rfl [] [] (by simp [keys])).trans ?_
  rfl
example [Ext] : Payload.dec .logMessage (canon (.obj [("message", .str "m")])) = none :=
  C33_required .logMessage ⟨"type", none, .never⟩ (by simp [Payload.schema]) rfl _ (by decide)

/-! ### C34 omission -/

/-- C34: the members written are schema members, each at most once and in schema order; those never
omitted are there; a member with an omission rule is never written with the value to be omitted. -/
theorem C34_omission [Ext] (p : Payload) (x : p.Carrier) :
    ∃ ms, p.enc x = .obj ms ∧ (keys ms).Sublist p.names ∧
      (∀ f ∈ p.schema, f.skip = .never → f.name ∈ keys ms) ∧
      (∀ f ∈ p.schema, ∀ j, f.skip = .whenEq j → (f.name, j) ∉ ms) := by
  refine ⟨p.members x, p.enc_eq_obj x, p.enc_keys x, ?_, fun f hf j hj => p.enc_omitted x f hf j hj⟩
  intro f hf hn
  have h := p.enc_present x f hf hn
  apply Classical.byContradiction
  intro hc
  exact h ((lookup_none_iff _ _).mpr ((keys_named _ _).mp hc))

/-- C34, the other direction: an omitted member stands for its default, so that nothing is lost:
filling in the default of every omitted member does not change what is decoded. -/
theorem C34_nothing_lost [LawfulExt] (p : Payload) (x : p.Carrier) (f : Payload.FieldSpec)
    (hf : f ∈ p.schema) (d : Json) (hd : f.absent = some d) (ms : Members)
    (he : p.enc x = .obj ms) (ho : f.name ∉ keys ms) :
    p.dec (canon (.obj ((f.name, d) :: ms))) = some (p.norm x) := by
  have := C33_optional p f hf d hd [] ms (by simpa using ho)
  simp only [List.nil_append] at this
  rw [← this, ← he, p.dec_enc]

/-- Beside C34: an empty message is omitted, a non-empty one is written. -/
example : TaskStart.enc ⟨⟨"t", []⟩, none, "", .none, .null⟩ =
    .obj [("taskId", .obj [("id", .str "t")])] := rfl
example : TaskStart.enc ⟨⟨"t", []⟩, none, "m", .none, .null⟩ =
    .obj [("taskId", .obj [("id", .str "t")]), ("message", .str "m")] := rfl

/-! ### C35 integer widths -/

theorem lookup_lastIs {k : String} {ms : Members} {v : Json} (h : Spec.LastIs k ms v) :
    List.lookup k (canonMembers ms []) = some (canon v) := by
  rw [lookup_canon, (lastIs_iff ..).mp h]; rfl

theorem decU32_none {j : Json} (h : ∀ i, j = .int i → i < 0 ∨ 2 ^ 32 ≤ i) : decU32 (canon j) = none := by
  cases j with
  | int i =>
    have := h i rfl
    simp only [canon_int, decU32]
    rw [if_neg]
    simp at this ⊢
    omega
  | null => rfl
  | bool _ => rfl
  | float _ => rfl
  | str _ => rfl
  | arr _ => simp [decU32]
  | obj _ => simp [canon, decU32]

theorem dflt_none {k : String} {ms : Members} {j : Json} {dec : Json → Option α}
    (h : List.lookup k ms = some j) (hd : dec j = none) (d : α) (i : Nat) :
    (Src.map ms).dflt i k d dec = none := by
  simp [Src.dflt, Src.get, h, hd]

/-- C35: a task notification with an event time that is not null and not an integer in [0, 2^32) is
rejected as a whole. -/
theorem C35_event_time [Ext] (ms ps : Members) (m : String) (j : Json)
    (hm : m = "build/taskStart" ∨ m = "build/taskFinish" ∨ m = "build/taskProgressing")
    (hid : Spec.NoUsableId ms) (h1 : Spec.Once "method" ms (.str m))
    (h2 : Spec.Once "params" ms (.obj ps)) (h3 : Spec.LastIs "eventTime" ps j) (h4 : j ≠ .null)
    (h5 : ∀ i, j = .int i → i < 0 ∨ 2 ^ 32 ≤ i) : Message.dec (.obj ms) = none := by
  rw [C14_rejected]
  refine ⟨noId_not_req hid, noId_not_resp hid, ?_⟩
  rintro ⟨n, hn⟩
  rw [← usableNotification_iff, Notification.dec_obj] at hn
  obtain ⟨m', h1', h⟩ := hn
  rw [once_iff] at h1 h2
  have e : m' = m := by have := h1'.symm.trans h1; simpa using this
  subst e
  rcases h with ⟨p, hp, h⟩ | ⟨hp, _⟩
  · have e : p = .obj ps := by have := hp.symm.trans h2; simpa using this
    subst e
    have hne : canon j ≠ .null := by
      cases j <;> simp_all [canon]
    have hl := lookup_lastIs h3
    have hdec : decOpt decU32 (canon j) = none := by
      rw [decOpt_of_ne hne, decU32_none h5]; rfl
    have hf := dflt_none hl hdec none
    rcases hm with rfl | rfl | rfl
    · have : TaskStart.dec (canon (.obj ps)) = none := by
        simp only [TaskStart.dec, structSrc_canon_obj]
        simp
        intro _ _ b hb
        rw [hf] at hb
        cases hb
      simp [Notification.ofMethod, this] at h
    · have : TaskFinish.dec (canon (.obj ps)) = none := by
        simp only [TaskFinish.dec, structSrc_canon_obj]
        simp
        intro _ _ b hb
        rw [hf] at hb
        cases hb
      simp [Notification.ofMethod, this] at h
    · have : TaskProgress.dec (canon (.obj ps)) = none := by
        simp only [TaskProgress.dec, structSrc_canon_obj]
        simp
        intro _ _ b hb
        rw [hf] at hb
        cases hb
      simp [Notification.ofMethod, this] at h
  · rw [Once, hp] at h2; cases h2

/-- C35: likewise total and progress. -/
theorem C35_total_progress [Ext] (ms ps : Members) (k : String) (j : Json)
    (hk : k = "total" ∨ k = "progress")
    (hid : Spec.NoUsableId ms) (h1 : Spec.Once "method" ms (.str "build/taskProgressing"))
    (h2 : Spec.Once "params" ms (.obj ps)) (h3 : Spec.LastIs k ps j) (h4 : j ≠ .null)
    (h5 : ∀ i, j = .int i → i < 0 ∨ 2 ^ 32 ≤ i) : Message.dec (.obj ms) = none := by
  rw [C14_rejected]
  refine ⟨noId_not_req hid, noId_not_resp hid, ?_⟩
  rintro ⟨n, hn⟩
  rw [← usableNotification_iff, Notification.dec_obj] at hn
  obtain ⟨m', h1', h⟩ := hn
  rw [once_iff] at h1 h2
  have e : m' = "build/taskProgressing" := by have := h1'.symm.trans h1; simpa using this
  subst e
  rcases h with ⟨p, hp, h⟩ | ⟨hp, _⟩
  · have e : p = .obj ps := by have := hp.symm.trans h2; simpa using this
    subst e
    have hne : canon j ≠ .null := by
      cases j <;> simp_all [canon]
    have hl := lookup_lastIs h3
    have hdec : decOpt decU32 (canon j) = none := by
      rw [decOpt_of_ne hne, decU32_none h5]; rfl
    have hf := dflt_none hl hdec none
    rcases hk with rfl | rfl
    all_goals
      have : TaskProgress.dec (canon (.obj ps)) = none := by
        simp only [TaskProgress.dec, structSrc_canon_obj]
        simp
        intro _ _ _ _ _ _ b hb
        first
          | rw [hf] at hb; cases hb
          | intro c hc; rw [hf] at hc; cases hc
      simp [Notification.ofMethod, this] at h
  · rw [Once, hp] at h2; cases h2

/-- Beside C35: a task start at 2023-11-14T22:13:20Z in milliseconds since the epoch is rejected;
the same number of seconds is accepted. -/
example [Ext] : Message.dec (.obj [("method", .str "build/taskStart"),
    ("params", .obj [("taskId", .obj [("id", .str "t")]), ("eventTime", .int 1700000000000)])]) = none := by
  refine C35_event_time _ [("taskId", .obj [("id", .str "t")]), ("eventTime", .int 1700000000000)]
    "build/taskStart" (.int 1700000000000) (.inl rfl) ?_
    ⟨[], _, rfl, by decide, by decide⟩ ⟨[("method", .str "build/taskStart")], [], rfl, by decide, by decide⟩
    ⟨[("taskId", .obj [("id", .str "t")])], [], rfl, by decide⟩ (by simp) ?_
  · rintro ⟨i, id, ⟨a, b, h, _⟩, _⟩
    have : "id" ∈ keys (a ++ ("id", i) :: b) := by simp [keys]
    rw [← h] at this
    revert this; decide
  · intro i h; cases h; decide
example : TaskStart.dec (canon (.obj [("eventTime", .int 1700000000)])) =
    some ⟨⟨"", []⟩, some 1700000000, "", .none, .null⟩ := by rfl

/-! ### C36 numeric enumerations -/

/-- C36: message types are the numbers 1 to 4. -/
theorem C36_message_type (j : Json) (x : MessageType) :
    (MessageType.dec j = some x ↔
      j = .int (match x with | .error => 1 | .warning => 2 | .info => 3 | .log => 4)) ∧
    (MessageType.dec j = some x → x.enc = j) := by
  have h : MessageType.dec j = some x ↔
      j = .int (match x with | .error => 1 | .warning => 2 | .info => 3 | .log => 4) := by
    constructor
    · intro h
      cases j <;> simp only [MessageType.dec] at h <;> try cases h
      repeat' split at h
      all_goals cases h
      all_goals (rename_i e; simp [e])
    · rintro rfl; cases x <;> rfl
  refine ⟨h, fun e => ?_⟩
  rw [h.mp e]; cases x <;> rfl

/-- C36: task statuses are the numbers 1 to 3. -/
theorem C36_task_status (j : Json) (x : TaskStatus) :
    (TaskStatus.dec j = some x ↔
      j = .int (match x with | .ok => 1 | .error => 2 | .cancelled => 3)) ∧
    (TaskStatus.dec j = some x → x.enc = j) := by
  have h : TaskStatus.dec j = some x ↔
      j = .int (match x with | .ok => 1 | .error => 2 | .cancelled => 3) := by
    constructor
    · intro h
      cases j <;> simp only [TaskStatus.dec] at h <;> try cases h
      repeat' split at h
      all_goals cases h
      all_goals (rename_i e; simp [e])
    · rintro rfl; cases x <;> rfl
  refine ⟨h, fun e => ?_⟩
  rw [h.mp e]; cases x <;> rfl

/-- C36: build target event kinds are the numbers 1 to 3. -/
theorem C36_event_kind (j : Json) (x : BuildTargetEventKind) :
    (BuildTargetEventKind.dec j = some x ↔
      j = .int (match x with | .created => 1 | .changed => 2 | .deleted => 3)) ∧
    (BuildTargetEventKind.dec j = some x → x.enc = j) := by
  have h : BuildTargetEventKind.dec j = some x ↔
      j = .int (match x with | .created => 1 | .changed => 2 | .deleted => 3) := by
    constructor
    · intro h
      cases j <;> simp only [BuildTargetEventKind.dec] at h <;> try cases h
      repeat' split at h
      all_goals cases h
      all_goals (rename_i e; simp [e])
    · rintro rfl; cases x <;> rfl
  refine ⟨h, fun e => ?_⟩
  rw [h.mp e]; cases x <;> rfl

/-- C36: source kinds are the numbers 1 and 2. -/
theorem C36_source_kind (j : Json) (x : SourceKind) :
    (SourceKind.dec j = some x ↔ j = .int (match x with | .file => 1 | .directory => 2)) ∧
    (SourceKind.dec j = some x → x.enc = j) := by
  have h : SourceKind.dec j = some x ↔ j = .int (match x with | .file => 1 | .directory => 2) := by
    constructor
    · intro h
      cases j <;> simp only [SourceKind.dec] at h <;> try cases h
      repeat' split at h
      all_goals cases h
      all_goals (rename_i e; simp [e])
    · rintro rfl; cases x <;> rfl
  refine ⟨h, fun e => ?_⟩
  rw [h.mp e]; cases x <;> rfl

/-- Beside C36. -/
example : MessageType.dec (.int 3) = some .info ∧ MessageType.dec (.int 5) = none ∧
    TaskStatus.dec (.str "1") = none ∧ SourceKind.dec (.int 0) = none := ⟨rfl, rfl, rfl, rfl⟩

/-! ### C37 task data kinds -/

/-- The built-in task data kinds and their names (specification table). -/
inductive Spec.KindName : TaskDataKind → String → Prop
  | a : KindName .compileTask "compile-task"
  | b : KindName .compileReport "compile-report"
  | c : KindName .testTask "test-task"
  | d : KindName .testReport "test-report"
  | e : KindName .testStart "test-start"
  | f : KindName .testFinish "test-finish"

/-- C37: decoding never fails; the result is determined by the table. -/
theorem C37_decode (j : Json) : ∃ k, TaskDataKind.dec j = some k ∧
    ((∃ s, j = .str s ∧ (Spec.KindName k s ∨ (s ∉ reservedKinds ∧ k = .custom s))) ∨
     ((∀ s, j ≠ .str s) ∧ k = .none)) := by
  cases j with
  | str s =>
    refine ⟨_, rfl, .inl ⟨s, rfl, ?_⟩⟩
    by_cases h : s ∈ reservedKinds
    · simp only [reservedKinds, List.mem_cons, List.not_mem_nil, or_false] at h
      rcases h with rfl | rfl | rfl | rfl | rfl | rfl
      · exact .inl .a
      · exact .inl .b
      · exact .inl .c
      · exact .inl .d
      · exact .inl .e
      · exact .inl .f
    · refine .inr ⟨h, ?_⟩
      simp [reservedKinds] at h
      simp [TaskDataKind.ofString, h]
  | _ => exact ⟨_, rfl, .inr ⟨by simp, rfl⟩⟩

/-- C37: encoding then decoding is the identity, except for custom kinds with a reserved name. -/
theorem C37_roundtrip (k : TaskDataKind) (h : ∀ s ∈ reservedKinds, k ≠ .custom s) :
    TaskDataKind.dec (canon k.enc) = some k := by
  rw [TaskDataKind.dec_enc, TaskDataKind.norm_plain h]

/-- C37: the exception is a real one. -/
theorem C37_reserved (s : String) (h : s ∈ reservedKinds) :
    ∃ k, Spec.KindName k s ∧ TaskDataKind.dec (canon (TaskDataKind.custom s).enc) = some k := by
  simp only [reservedKinds, List.mem_cons, List.not_mem_nil, or_false] at h
  rcases h with rfl | rfl | rfl | rfl | rfl | rfl
  · exact ⟨_, .a, rfl⟩
  · exact ⟨_, .b, rfl⟩
  · exact ⟨_, .c, rfl⟩
  · exact ⟨_, .d, rfl⟩
  · exact ⟨_, .e, rfl⟩
  · exact ⟨_, .f, rfl⟩

/-- Beside C37. -/
example : TaskDataKind.dec (canon (TaskDataKind.custom "scala").enc) = some (.custom "scala") :=
  C37_roundtrip _ (by intro s hs h; cases h; revert hs; decide)

/-! ### C38 tags -/

/-- The tag names accepted by the code. -/
def Spec.tagNames : List String :=
  ["libary", "application", "test", "integration-test", "benchmark", "no-i-d-e", "manual"]

/-- C38 (violated by the code): a string outside the seven names is rejected, although the
documentation promises free-form string tags; "library" and "no-ide" of BSP are among those. -/
theorem C38_violated :
    (∀ s, s ∉ Spec.tagNames → BuildTargetTag.dec (.str s) = none) ∧
    "library" ∉ Spec.tagNames ∧ "no-ide" ∉ Spec.tagNames ∧
    (∀ s t, (BuildTargetTag.custom s).enc ≠ .str t) := by
  refine ⟨?_, by decide, by decide, by simp [BuildTargetTag.enc]⟩
  intro s h
  simp [Spec.tagNames] at h
  simp [BuildTargetTag.dec, BuildTargetTag.unitVariant, h]

/-- C38, the part that holds: a tag comes back from the wire; the seven names are accepted and
denote different tags.  Missing: free-form string tags. -/
theorem C38_partial :
    (∀ t : BuildTargetTag, BuildTargetTag.dec (canon t.enc) = some t) ∧
    (∀ s ∈ Spec.tagNames, ∃ t : BuildTargetTag, BuildTargetTag.dec (.str s) = some t ∧ t.enc = .str s) := by
  refine ⟨BuildTargetTag.dec_enc, ?_⟩
  intro s h
  simp only [Spec.tagNames, List.mem_cons, List.not_mem_nil, or_false] at h
  rcases h with rfl | rfl | rfl | rfl | rfl | rfl | rfl <;> exact ⟨_, rfl, rfl⟩

/-- C38, exactly what is accepted: one of the seven names, as a string or as the only member of an
object with value null, and an object with the only member "custom" and a string. -/
theorem C38_exact (j : Json) (t : BuildTargetTag) :
    BuildTargetTag.dec j = some t ↔
      (∃ s ∈ Spec.tagNames, (j = .str s ∨ j = .obj [(s, .null)]) ∧ t.enc = .str s) ∨
      ∃ s, j = .obj [("custom", .str s)] ∧ t = .custom s := by
  have hu : ∀ s, BuildTargetTag.unitVariant s = some t ↔ s ∈ Spec.tagNames ∧ t.enc = .str s := by
    intro s
    constructor
    · intro h
      unfold BuildTargetTag.unitVariant at h
      repeat' split at h
      all_goals first
        | (cases h; subst_vars; exact ⟨by decide, rfl⟩)
        | cases h
    · rintro ⟨_, h⟩
      cases t <;> simp only [BuildTargetTag.enc, Json.str.injEq, reduceCtorEq] at h <;>
        subst h <;> rfl
  constructor
  · intro h
    cases j with
    | str s => obtain ⟨h1, h2⟩ := (hu s).mp h; exact .inl ⟨s, h1, .inl rfl, h2⟩
    | obj ms =>
      match ms, h with
      | [], h => cases h
      | _ :: _ :: _, h => cases h
      | [(k, v)], h =>
        by_cases hk : k = "custom"
        · subst hk
          cases v with
          | str s => cases h; exact .inr ⟨s, rfl, rfl⟩
          | _ => cases h
        · cases v with
          | null =>
            have h' : BuildTargetTag.unitVariant k = some t := by
              simpa [BuildTargetTag.dec, hk] using h
            obtain ⟨h1, h2⟩ := (hu k).mp h'
            exact .inl ⟨k, h1, .inr rfl, h2⟩
          | _ => simp [BuildTargetTag.dec, hk] at h
    | _ => cases h
  · rintro (⟨s, hs, rfl | rfl, h⟩ | ⟨s, rfl, rfl⟩)
    · exact (hu s).mpr ⟨hs, h⟩
    · have hk : s ≠ "custom" := by rintro rfl; exact absurd hs (by decide)
      simpa [BuildTargetTag.dec, hk] using (hu s).mpr ⟨hs, h⟩
    · rfl

/-- Beside C38: a free-form tag has to come as an object; the name of a known tag may. -/
example : BuildTargetTag.dec (.obj [("custom", .str "proto")]) = some (.custom "proto") ∧
    BuildTargetTag.dec (.obj [("manual", .null)]) = some .manual :=
  ⟨(C38_exact _ _).2 (.inr ⟨_, rfl, rfl⟩), (C38_exact _ _).2 (.inl ⟨"manual", by decide, .inr rfl, rfl⟩)⟩

/-- Beside C38. -/
example : BuildTargetTag.dec (.str "library") = none := C38_violated.1 _ (by decide)

end Bsp
