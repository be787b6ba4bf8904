/-
The decoders of Verif/Message.lean satisfy the relations of Verif/Spec.lean, in both directions.
-/
import Verif.Spec
import Verif.MessageLemmas

set_option linter.unusedSectionVars false

namespace Bsp
open Json
open Spec (IdOf UsableRequest UsableResponse UsableNotification ReqMeaning NotMeaning keys)

/-! ### The specification relations against the model -/

theorem keys_named (k : String) (ms : Members) : k ∉ keys ms ↔ named k ms = [] := by
  simp [keys, named, List.filter_eq_nil_iff]
  constructor
  · rintro h a b hm rfl; exact h _ hm
  · intro h b hm; exact h _ _ hm rfl

theorem once_iff (k : String) (ms : Members) (v : Json) : Spec.Once k ms v ↔ Once k ms v := by
  constructor
  · rintro ⟨a, b, rfl, ha, hb⟩
    rw [keys_named] at ha hb
    simp [Once, named_append, named_cons_self, ha, hb]
  · intro h
    induction ms with
    | nil => simp [Once, named] at h
    | cons x ms ih =>
      obtain ⟨k', v'⟩ := x
      by_cases e : k' = k
      · subst e
        rw [Once, named_cons_self] at h
        simp only [List.cons.injEq, Prod.mk.injEq, true_and] at h
        obtain ⟨rfl, h⟩ := h
        exact ⟨[], ms, rfl, by simp [keys], (keys_named _ _).mpr h⟩
      · rw [Once, named_cons_ne e] at h
        obtain ⟨a, b, rfl, ha, hb⟩ := ih h
        refine ⟨(k', v') :: a, b, rfl, ?_, hb⟩
        simp only [keys, List.map_cons, List.mem_cons, not_or]
        exact ⟨fun h => e h.symm, ha⟩

theorem optOnce_iff {k : String} {ms : Members} {dec : Json → Option α} {P : Json → α → Prop}
    (hP : ∀ j x, dec j = some x ↔ P j x) (o : Option α) :
    OptMember k ms dec o ↔ Spec.OptOnce k ms P o := by
  simp only [OptMember, Spec.OptOnce, keys_named, once_iff, hP]

theorem optElem_iff {j : Json} {dec : Json → Option α} {P : Json → α → Prop}
    (hP : ∀ j x, dec j = some x ↔ P j x) (o : Option α) :
    decOpt dec j = some o ↔ Spec.OptElem j P o := by
  by_cases h : j = .null
  · subst h; simp [decOpt, Spec.OptElem, eq_comm]
  · simp only [decOpt_of_ne h, Spec.OptElem, h, false_and, false_or, Option.map_eq_some_iff, hP]
    constructor
    · rintro ⟨x, hx, rfl⟩; exact ⟨x, h, hx, rfl⟩
    · rintro ⟨x, _, hx, rfl⟩; exact ⟨x, hx, rfl⟩

theorem decI32_iff (j : Json) (x : Int32) :
    decI32 j = some x ↔ ∃ i, j = .int i ∧ (-(2 ^ 31) ≤ i ∧ i < 2 ^ 31) ∧ x = Int32.ofInt i := by
  cases j <;> simp [decI32]
  intros; exact eq_comm

theorem idOf_iff (j : Json) (id : RequestId) : RequestId.dec j = some id ↔ IdOf j id := by
  simp only [RequestId.dec]
  constructor
  · intro h
    cases hd : decI32 j with
    | some x =>
      simp only [hd, Option.some.injEq] at h; subst h
      obtain ⟨i, rfl, hi, rfl⟩ := (decI32_iff j x).mp hd
      exact .num i hi
    | none =>
      simp only [hd] at h
      cases j <;> simp [decStr] at h
      subst h; exact .str _
  · rintro (⟨i, hi⟩ | s)
    · have := (decI32_iff (.int i) _).mpr ⟨i, rfl, hi, rfl⟩
      rw [this]
    · simp [decI32, decStr]

theorem idOf_i32 (c : Int) (x : Int32) : IdOf (.int c) (.i32 x) ↔ decI32 (.int c) = some x := by
  rw [← idOf_iff]
  simp only [RequestId.dec]
  cases h : decI32 (.int c) <;> simp [decStr]

theorem errOf_iff (j : Json) (e : ResponseError) :
    ResponseError.dec j = some e ↔ Spec.ErrOf j e := by
  have hv : ∀ j x, decValue j = some x ↔ Spec.AnyValue j x := by
    intro j x; simp [decValue, Spec.AnyValue, eq_comm]
  cases j with
  | obj ms =>
    have harr : ¬ ∃ c d, Json.obj ms = .arr [.int c, .str e.message, d] ∧
        IdOf (.int c) (.i32 e.code) ∧ Spec.OptElem d Spec.AnyValue e.data := by
      rintro ⟨c, d, h, _⟩; cases h
    simp only [Spec.ErrOf, harr, or_false]
    simp only [ResponseError.dec, structSrc]
    by_cases hd : dupKnown ResponseError.fields ms = true
    · rw [if_pos hd]
      simp only [Option.bind_eq_bind, Option.bind_none, reduceCtorEq, false_iff]
      rintro ⟨ms', c, h, h1, _, h2, h3⟩
      cases h
      rw [once_iff] at h1 h2
      rw [← optOnce_iff hv] at h3
      have : dupKnown ResponseError.fields ms = false := by
        rw [dupKnown_false]
        intro k hk
        simp only [ResponseError.fields, List.mem_cons, List.not_mem_nil, or_false] at hk
        rcases hk with rfl | rfl | rfl
        · rw [h1]; simp
        · rw [h2]; simp
        · rcases h3 with ⟨h, _⟩ | ⟨h, _⟩ | ⟨j, _, h, _⟩ <;> rw [h] <;> simp
      simp [this] at hd
    · rw [if_neg hd]
      have hd' : dupKnown ResponseError.fields ms = false := by simpa using hd
      rw [dupKnown_false] at hd'
      have l1 := hd' "code" (by simp [ResponseError.fields])
      have l2 := hd' "message" (by simp [ResponseError.fields])
      have l3 := hd' "data" (by simp [ResponseError.fields])
      simp only [Option.bind_eq_bind, Option.bind_some, Option.bind_eq_some_iff,
        opt_map_iff _ l3, Src.req, Src.get, optOnce_iff hv]
      constructor
      · rintro ⟨c, ⟨i, hi, hc⟩, m, ⟨mj, hm, hmm⟩, d, hd, h⟩
        cases h
        obtain ⟨n, rfl, _⟩ := (decI32_iff i c).mp hc
        cases mj <;> simp [decStr] at hmm
        subst hmm
        exact ⟨ms, n, rfl, (once_iff ..).mpr (once_of_lookup hi l1), (idOf_i32 ..).mpr hc,
          (once_iff ..).mpr (once_of_lookup hm l2), hd⟩
      · rintro ⟨ms', c, h, h1, hc, h2, h3⟩
        cases h
        rw [once_iff] at h1 h2
        exact ⟨e.code, ⟨_, h1.lookup, (idOf_i32 ..).mp hc⟩, e.message, ⟨_, h2.lookup, rfl⟩,
          e.data, h3, rfl⟩
  | arr xs =>
    have hobj : ¬ ∃ ms c, Json.arr xs = .obj ms ∧ Spec.Once "code" ms (.int c) ∧
        IdOf (.int c) (.i32 e.code) ∧ Spec.Once "message" ms (.str e.message) ∧
        Spec.OptOnce "data" ms Spec.AnyValue e.data := by
      rintro ⟨c, d, h, _⟩; cases h
    simp only [Spec.ErrOf, hobj, false_or]
    simp only [ResponseError.dec, structSrc, ResponseError.fields, List.length_cons,
      List.length_nil]
    rcases xs with _ | ⟨i, _ | ⟨a, _ | ⟨b, _ | ⟨c, xs⟩⟩⟩⟩
    · simp [Src.req, Src.get]
    · simp [Src.req, Src.get]
    · simp [Src.req, Src.opt, Src.get]
    · have h0 : ¬ (0 + 1 + 1 + 1 < 0 + 1 + 1 + 1) := by omega
      simp only [List.length_cons, List.length_nil, h0, if_false, Option.bind_eq_bind,
        Option.bind_some, Src.req, Src.opt, Src.get, List.getElem?_cons_zero,
        List.getElem?_cons_succ, Option.bind_eq_some_iff, optElem_iff hv]
      constructor
      · rintro ⟨c, hc, m, hm, d, hd, h⟩
        cases h
        obtain ⟨n, rfl, _⟩ := (decI32_iff i c).mp hc
        cases a <;> simp [decStr] at hm
        subst hm
        exact ⟨n, b, rfl, (idOf_i32 ..).mpr hc, hd⟩
      · rintro ⟨c, d, h, hc, hd⟩
        cases h
        exact ⟨e.code, (idOf_i32 ..).mp hc, e.message, rfl, e.data, hd, rfl⟩
    · simp
  | null => simp [ResponseError.dec, structSrc, Spec.ErrOf]
  | bool => simp [ResponseError.dec, structSrc, Spec.ErrOf]
  | int => simp [ResponseError.dec, structSrc, Spec.ErrOf]
  | float => simp [ResponseError.dec, structSrc, Spec.ErrOf]
  | str => simp [ResponseError.dec, structSrc, Spec.ErrOf]

section
variable [Ext]

theorem ofMethod_iff (id : RequestId) (m : String) (p : Value) (r : Request) :
    Request.ofMethod id m p = some r ↔ ReqMeaning id m p r := by
  constructor
  · intro h
    by_cases h1 : m = "build/initialize"
    · subst h1; simp [Request.ofMethod] at h; obtain ⟨x, hx, rfl⟩ := h; exact .initialize hx
    by_cases h2 : m = "build/shutdown"
    · subst h2; simp [Request.ofMethod] at h; subst h; exact .shutdown
    by_cases h3 : m = "workspace/buildTargets"
    · subst h3; simp [Request.ofMethod] at h; subst h; exact .buildTargets
    by_cases h4 : m = "workspace/reload"
    · subst h4; simp [Request.ofMethod] at h; subst h; exact .reload
    by_cases h5 : m = "buildTarget/dependencyModules"
    · subst h5; simp [Request.ofMethod] at h; obtain ⟨x, hx, rfl⟩ := h; exact .dependencyModules hx
    by_cases h6 : m = "debugSession/start"
    · subst h6; simp [Request.ofMethod] at h; obtain ⟨x, hx, rfl⟩ := h; exact .debug hx
    by_cases h7 : m = "buildTarget/sources"
    · subst h7; simp [Request.ofMethod] at h; obtain ⟨x, hx, rfl⟩ := h; exact .sources hx
    by_cases h8 : m = "textDocument/inverseSources"
    · subst h8; simp [Request.ofMethod] at h; obtain ⟨x, hx, rfl⟩ := h; exact .inverseSources hx
    by_cases h9 : m = "buildTarget/dependencySources"
    · subst h9; simp [Request.ofMethod] at h; obtain ⟨x, hx, rfl⟩ := h; exact .dependencySources hx
    by_cases h10 : m = "buildTarget/resources"
    · subst h10; simp [Request.ofMethod] at h; obtain ⟨x, hx, rfl⟩ := h; exact .resources hx
    by_cases h11 : m = "buildTarget/run"
    · subst h11; simp [Request.ofMethod] at h; obtain ⟨x, hx, rfl⟩ := h; exact .run hx
    by_cases h12 : m = "buildTarget/compile"
    · subst h12; simp [Request.ofMethod] at h; obtain ⟨x, hx, rfl⟩ := h; exact .compile hx
    by_cases h13 : m = "buildTarget/test"
    · subst h13; simp [Request.ofMethod] at h; obtain ⟨x, hx, rfl⟩ := h; exact .test hx
    by_cases h14 : m = "buildTarget/cleanCache"
    · subst h14; simp [Request.ofMethod] at h; obtain ⟨x, hx, rfl⟩ := h; exact .cleanCache hx
    simp [Request.ofMethod, h1, h2, h3, h4, h5, h6, h7, h8, h9, h10, h11, h12, h13, h14] at h
    subst h
    refine .custom ?_
    simp [Spec.requestMethods, h1, h2, h3, h4, h5, h6, h7, h8, h9, h10, h11, h12, h13, h14]
  · intro h
    cases h with
    | custom h =>
      simp only [Spec.requestMethods, List.mem_cons, List.not_mem_nil, or_false, not_or] at h
      obtain ⟨h1, h2, h3, h4, h5, h6, h7, h8, h9, h10, h11, h12, h13, h14⟩ := h
      simp [Request.ofMethod, *]
    | shutdown => simp [Request.ofMethod]
    | buildTargets => simp [Request.ofMethod]
    | reload => simp [Request.ofMethod]
    | _ h => simp [Request.ofMethod, h]

theorem notMethod_iff (m : String) (p : Value) (n : Notification) :
    Notification.ofMethod m p = some n ↔ NotMeaning m p n := by
  constructor
  · intro h
    unfold Notification.ofMethod at h
    repeat' split at h
    all_goals first
      | (subst_vars
         simp only [Option.map_eq_some_iff] at h
         obtain ⟨x, hx, rfl⟩ := h
         first
         | exact .showMessage hx | exact .logMessage hx | exact .publishDiagnostics hx
         | exact .taskStart hx | exact .taskFinish hx | exact .taskProgress hx
         | exact .didChange hx)
      | (subst_vars
         cases h
         first | exact .exit | exact .initialized)
      | skip
    all_goals
      cases h
      refine .custom ?_
      simp only [Spec.notificationMethods, List.mem_cons, List.not_mem_nil, or_false, not_or]
      exact ⟨by assumption, by assumption, by assumption, by assumption, by assumption,
        by assumption, by assumption, by assumption, by assumption⟩
  · intro h
    cases h with
    | custom h =>
      simp only [Spec.notificationMethods, List.mem_cons, List.not_mem_nil, or_false, not_or] at h
      obtain ⟨h1, h2, h3, h4, h5, h6, h7, h8, h9⟩ := h
      simp [Notification.ofMethod, *]
    | exit => simp [Notification.ofMethod]
    | initialized => simp [Notification.ofMethod]
    | _ h => simp [Notification.ofMethod, h]

theorem usableRequest_iff (j : Json) (r : Request) :
    Request.dec j = some r ↔ UsableRequest j r := by
  cases j with
  | obj ms =>
    rw [Request.dec_obj]
    simp only [UsableRequest, once_iff, idOf_iff, ofMethod_iff]
    constructor
    · rintro ⟨i, m, p, id, h⟩; exact ⟨ms, i, m, p, id, rfl, h⟩
    · rintro ⟨_, i, m, p, id, h, h'⟩; cases h; exact ⟨i, m, p, id, h'⟩
  | _ => simp [Request.dec, Request.decMode, UsableRequest]

theorem usableResponse_iff (j : Json) (r : Response) :
    Response.dec j = some r ↔ UsableResponse j r := by
  have hv : ∀ j x, decValue j = some x ↔ Spec.AnyValue j x := by
    intro j x; simp [decValue, Spec.AnyValue, eq_comm]
  cases j with
  | obj ms =>
    rw [Response.dec_obj]
    simp only [UsableResponse, once_iff, idOf_iff, optOnce_iff hv, optOnce_iff errOf_iff,
      reduceCtorEq, false_and, exists_false, or_false]
    constructor
    · rintro ⟨⟨i, h1, h2⟩, h3, h4⟩; exact ⟨ms, i, rfl, h1, h2, h3, h4⟩
    · rintro ⟨_, i, h, h1, h2, h3, h4⟩; cases h; exact ⟨⟨i, h1, h2⟩, h3, h4⟩
  | arr xs =>
    rw [Response.dec_arr]
    simp only [UsableResponse, idOf_iff, optElem_iff hv, optElem_iff errOf_iff,
      reduceCtorEq, false_and, exists_false, false_or, Json.arr.injEq]
  | _ => simp [Response.dec, structSrc, UsableResponse]

theorem usableNotification_iff (j : Json) (n : Notification) :
    Notification.dec j = some n ↔ UsableNotification j n := by
  cases j with
  | obj ms =>
    rw [Notification.dec_obj]
    simp only [UsableNotification, once_iff, notMethod_iff, keys_named]
    constructor
    · rintro ⟨m, h⟩; exact ⟨ms, m, rfl, h⟩
    · rintro ⟨_, m, h, h'⟩; cases h; exact ⟨m, h'⟩
  | _ => simp [Notification.dec, Notification.decMode, UsableNotification]

end
end Bsp
