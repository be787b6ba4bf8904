/-
Properties of decoding: classification (C14), unknown members (C15), order (C16), duplicates (C17),
ids (C18, C19), rejected params (C20), unknown methods (C21), method names (C22), exit/initialized
(C28), bare method names (C61), direct decoding (C64).
-/
import Verif.SpecLemmas

set_option linter.unusedSectionVars false

namespace Bsp
open Json
open Spec (IdOf UsableRequest UsableResponse UsableNotification ReqMeaning NotMeaning keys)

section
variable [Ext]

/-! ### C14 classification -/

/-- C14: a JSON value decodes to a request iff it is a usable request, with that meaning. -/
theorem C14_request (j : Json) (r : Request) :
    Message.dec j = some (.request r) ↔ UsableRequest j r := by
  rw [← usableRequest_iff]
  simp only [Message.dec]
  cases h : Request.dec j with
  | some q => simp
  | none =>
    cases Response.dec j with
    | some q => simp
    | none => cases Notification.dec j <;> simp

theorem request_none_iff (j : Json) : Request.dec j = none ↔ ¬ ∃ r, UsableRequest j r := by
  simp only [← usableRequest_iff]
  cases Request.dec j <;> simp

theorem response_none_iff (j : Json) : Response.dec j = none ↔ ¬ ∃ r, UsableResponse j r := by
  simp only [← usableResponse_iff]
  cases Response.dec j <;> simp

theorem notification_none_iff (j : Json) :
    Notification.dec j = none ↔ ¬ ∃ n, UsableNotification j n := by
  simp only [← usableNotification_iff]
  cases Notification.dec j <;> simp

/-- C14: it decodes to a response iff it is not a usable request but a usable response. -/
theorem C14_response (j : Json) (r : Response) :
    Message.dec j = some (.response r) ↔ (¬ ∃ q, UsableRequest j q) ∧ UsableResponse j r := by
  rw [← usableResponse_iff, ← request_none_iff]
  simp only [Message.dec]
  cases h : Request.dec j with
  | some q => simp
  | none =>
    cases Response.dec j with
    | some q => simp
    | none => cases Notification.dec j <;> simp

/-- C14: it decodes to a notification iff it is neither a usable request nor a usable response but a
usable notification. -/
theorem C14_notification (j : Json) (n : Notification) :
    Message.dec j = some (.notification n) ↔
      (¬ ∃ q, UsableRequest j q) ∧ (¬ ∃ r, UsableResponse j r) ∧ UsableNotification j n := by
  rw [← usableNotification_iff, ← request_none_iff, ← response_none_iff]
  simp only [Message.dec]
  cases h : Request.dec j with
  | some q => simp
  | none =>
    cases Response.dec j with
    | some q => simp
    | none => cases Notification.dec j <;> simp

/-- C14: otherwise the read fails. -/
theorem C14_rejected (j : Json) :
    Message.dec j = none ↔
      (¬ ∃ q, UsableRequest j q) ∧ (¬ ∃ r, UsableResponse j r) ∧ (¬ ∃ n, UsableNotification j n) := by
  rw [← notification_none_iff, ← request_none_iff, ← response_none_iff]
  simp only [Message.dec]
  cases h : Request.dec j with
  | some q => simp
  | none =>
    cases Response.dec j with
    | some q => simp
    | none => cases Notification.dec j <;> simp

end

section
attribute [local instance] Ext.sample

/-- Beside C14: a usable request with an extra member. -/
example : Message.dec (.obj [("jsonrpc", .str "2.0"), ("id", .int 7), ("method", .str "x/y"),
    ("params", .arr [.int 1])]) =
    some (.request (.custom (.i32 7) "x/y" (Value.ofJson (.arr [.int 1])))) := by
  rw [C14_request]
  refine ⟨_, .int 7, "x/y", .arr [.int 1], .i32 7, rfl, ?_, ?_, ?_, ?_, ?_⟩
  · exact ⟨[("jsonrpc", .str "2.0")], _, rfl, by decide, by decide⟩
  · exact IdOf.num 7 (by decide)
  · exact ⟨[("jsonrpc", .str "2.0"), ("id", .int 7)], _, rfl, by decide, by decide⟩
  · exact ⟨[("jsonrpc", .str "2.0"), ("id", .int 7), ("method", .str "x/y")], [], rfl,
      by decide, by decide⟩
  · exact .custom (by decide)

/-- Beside C14: an array of three is a response, an array of two is rejected. -/
example : Message.dec (.arr [.int 1, .null, .null]) = some (.response ⟨.i32 1, none, none⟩) := by
  rw [C14_response]
  refine ⟨?_, .inr ⟨.int 1, .null, .null, rfl, IdOf.num 1 (by decide), .inl ⟨rfl, rfl⟩,
    .inl ⟨rfl, rfl⟩⟩⟩
  rintro ⟨q, ms, _, _, _, _, h, _⟩; cases h
end

section
variable [Ext]

/-! ### C15 unknown members, C16 order -/

theorem filter_named (ks : List String) {k : String} (hk : k ∈ ks) (ms : Members) :
    named k (ms.filter (fun m => m.1 ∈ ks)) = named k ms := by
  simp only [named, List.filter_filter]
  congr 1
  funext m
  by_cases h : m.1 = k
  · subst h; simp [hk]
  · simp [h]

/-- Decoding depends only on which of the five member names occur once, and on being absent. -/
theorem Message.dec_congr {a b : Members}
    (h1 : ∀ k ∈ Spec.messageKeys, ∀ v, Once k a v ↔ Once k b v)
    (h0 : ∀ k ∈ Spec.messageKeys, named k a = [] ↔ named k b = []) :
    Message.dec (.obj a) = Message.dec (.obj b) := by
  have hid := h1 "id" (by simp [Spec.messageKeys])
  have hm := h1 "method" (by simp [Spec.messageKeys])
  have hp := h1 "params" (by simp [Spec.messageKeys])
  have hr := h1 "result" (by simp [Spec.messageKeys])
  have he := h1 "error" (by simp [Spec.messageKeys])
  have hp0 := h0 "params" (by simp [Spec.messageKeys])
  have hr0 := h0 "result" (by simp [Spec.messageKeys])
  have he0 := h0 "error" (by simp [Spec.messageKeys])
  have e1 : Request.dec (.obj a) = Request.dec (.obj b) := by
    apply Option.ext
    intro r
    simp only [Request.dec_obj, hid, hm, hp]
  have e2 : Response.dec (.obj a) = Response.dec (.obj b) := by
    apply Option.ext
    intro r
    simp only [Response.dec_obj, OptMember, hid, hr, he, hr0, he0]
  have e3 : Notification.dec (.obj a) = Notification.dec (.obj b) := by
    apply Option.ext
    intro r
    simp only [Notification.dec_obj, hm, hp, hp0]
  simp only [Message.dec, e1, e2, e3]

/-- C15: two objects that agree after deleting all members with names other than
id, method, params, result and error decode alike. -/
theorem C15_unknown_members (a b : Members)
    (h : a.filter (fun m => m.1 ∈ Spec.messageKeys) = b.filter (fun m => m.1 ∈ Spec.messageKeys)) :
    Message.dec (.obj a) = Message.dec (.obj b) := by
  have hn : ∀ k ∈ Spec.messageKeys, named k a = named k b := by
    intro k hk
    rw [← filter_named _ hk a, ← filter_named _ hk b, h]
  apply Message.dec_congr
  · intro k hk v; simp only [Once, hn k hk]
  · intro k hk; rw [hn k hk]

/-- C15, in the form "inserting an unknown member anywhere changes nothing". -/
theorem C15_insert (a b : Members) (k : String) (v : Json) (hk : k ∉ Spec.messageKeys) :
    Message.dec (.obj (a ++ (k, v) :: b)) = Message.dec (.obj (a ++ b)) := by
  apply C15_unknown_members
  simp [List.filter_append, hk]

/-- Beside C15: `jsonrpc` may have any value. -/
example (v : Json) (b : Members) :
    Message.dec (.obj (("jsonrpc", v) :: b)) = Message.dec (.obj b) :=
  C15_insert [] b "jsonrpc" v (by decide)

theorem perm_once {a b : Members} (h : a.Perm b) (k : String) (v : Json) :
    Once k a v ↔ Once k b v := by
  have hp : (named k a).Perm (named k b) := h.filter _
  simp only [Once]
  constructor
  · intro e; rw [e] at hp; exact (List.perm_singleton.mp hp.symm)
  · intro e; rw [e] at hp; exact (List.perm_singleton.mp hp)

theorem perm_nil {a b : Members} (h : a.Perm b) (k : String) :
    named k a = [] ↔ named k b = [] := by
  have hp : (named k a).Perm (named k b) := h.filter _
  constructor
  · intro e; rw [e] at hp; exact hp.symm.eq_nil
  · intro e; rw [e] at hp; exact hp.eq_nil

/-- C16: the order of the members of a message object is irrelevant. -/
theorem C16_order (a b : Members) (h : a.Perm b) : Message.dec (.obj a) = Message.dec (.obj b) :=
  Message.dec_congr (fun k _ v => perm_once h k v) (fun k _ => perm_nil h k)

/-- Beside C16: a non-trivial permutation. -/
example (i m p : Json) : Message.dec (.obj [("id", i), ("method", m), ("params", p)]) =
    Message.dec (.obj [("params", p), ("id", i), ("method", m)]) :=
  C16_order _ _ (by
    refine (List.Perm.trans ?_ (List.Perm.swap _ _ _))
    exact (List.Perm.swap _ _ _).symm.cons _ |>.trans (List.Perm.refl _))

/-! ### C17 duplicates -/

theorem once_count {k : String} {ms : Members} {v : Json} (h : Once k ms v) :
    (keys ms).count k = 1 := by
  obtain ⟨a, b, rfl, ha, hb⟩ := (once_iff ..).mpr h
  have h1 := List.count_eq_zero.mpr ha
  have h2 := List.count_eq_zero.mpr hb
  simp only [keys] at h1 h2
  simp only [keys, List.map_append, List.map_cons, List.count_append, List.count_cons_self]
  omega

theorem named_nil_count {k : String} {ms : Members} (h : named k ms = []) :
    (keys ms).count k = 0 := List.count_eq_zero.mpr ((keys_named k ms).mpr h)

/-- C17: with id, method or params twice, never a request. -/
theorem C17_request (ms : Members) (k : String) (hk : k ∈ ["id", "method", "params"])
    (h : 2 ≤ (keys ms).count k) (r : Request) : Message.dec (.obj ms) ≠ some (.request r) := by
  intro hr
  rw [C14_request, ← usableRequest_iff, Request.dec_obj] at hr
  obtain ⟨i, m, p, id, h1, _, h2, h3, _⟩ := hr
  simp only [List.mem_cons, List.not_mem_nil, or_false] at hk
  have c1 := once_count h1
  have c2 := once_count h2
  have c3 := once_count h3
  rcases hk with rfl | rfl | rfl <;> omega

theorem optMember_count {k : String} {ms : Members} {dec : Json → Option α} {o : Option α}
    (h : OptMember k ms dec o) : (keys ms).count k ≤ 1 := by
  rcases h with ⟨h, _⟩ | ⟨h, _⟩ | ⟨j, x, h, _⟩
  · have := named_nil_count h; omega
  · have := once_count h; omega
  · have := once_count h; omega

/-- C17: with id, result or error twice, never a response. -/
theorem C17_response (ms : Members) (k : String) (hk : k ∈ ["id", "result", "error"])
    (h : 2 ≤ (keys ms).count k) (r : Response) : Message.dec (.obj ms) ≠ some (.response r) := by
  intro hr
  rw [C14_response, ← usableResponse_iff, Response.dec_obj] at hr
  obtain ⟨_, ⟨i, h1, _⟩, h2, h3⟩ := hr
  simp only [List.mem_cons, List.not_mem_nil, or_false] at hk
  have c1 := once_count h1
  have c2 := optMember_count h2
  have c3 := optMember_count h3
  rcases hk with rfl | rfl | rfl <;> omega

/-- C17: with method or params twice, never a notification. -/
theorem C17_notification (ms : Members) (k : String) (hk : k ∈ ["method", "params"])
    (h : 2 ≤ (keys ms).count k) (n : Notification) :
    Message.dec (.obj ms) ≠ some (.notification n) := by
  intro hr
  rw [C14_notification, ← usableNotification_iff, Notification.dec_obj] at hr
  obtain ⟨_, _, m, h1, h2⟩ := hr
  simp only [List.mem_cons, List.not_mem_nil, or_false] at hk
  have c1 := once_count h1
  have c2 : (keys ms).count "params" ≤ 1 := by
    rcases h2 with ⟨p, h, _⟩ | ⟨h, _⟩
    · have := once_count h; omega
    · have := named_nil_count h; omega
  rcases hk with rfl | rfl <;> omega

/-- C17: an object with id twice is at most a notification. -/
theorem C17_double_id (ms : Members) (h : 2 ≤ (keys ms).count "id") (m : Message)
    (hm : Message.dec (.obj ms) = some m) : ∃ n, m = .notification n := by
  cases m with
  | request r => exact absurd hm (C17_request ms "id" (by simp) h r)
  | response r => exact absurd hm (C17_response ms "id" (by simp) h r)
  | notification n => exact ⟨n, rfl⟩

/-- Beside C17: the hypotheses are met by a message with two ids, which comes out as a notification. -/
example : Message.dec (.obj [("id", .int 1), ("id", .int 2), ("method", .str "build/exit")]) =
    some (.notification .exit) := by
  rw [C14_notification]
  refine ⟨?_, ?_, ?_⟩
  · rw [← request_none_iff]; rfl
  · rw [← response_none_iff]; rfl
  · exact ⟨_, "build/exit", rfl, ⟨[("id", .int 1), ("id", .int 2)], [], rfl, by decide, by decide⟩,
      .inr ⟨by decide, .inl rfl, .exit⟩⟩
end

/-! ### C18 ids -/

/-- C18: an id is accepted iff it is an integer in [-2^31, 2^31) or a string. -/
theorem C18_accepts (j : Json) :
    (∃ id, RequestId.dec j = some id) ↔
      (∃ i : Int, j = .int i ∧ -(2 ^ 31) ≤ i ∧ i < 2 ^ 31) ∨ ∃ s, j = .str s := by
  simp only [idOf_iff]
  constructor
  · rintro ⟨id, ⟨i, hi⟩ | s⟩
    · exact .inl ⟨i, rfl, hi⟩
    · exact .inr ⟨s, rfl⟩
  · rintro (⟨i, rfl, hi⟩ | ⟨s, rfl⟩)
    · exact ⟨_, .num i hi⟩
    · exact ⟨_, .str s⟩

/-- C18: an id survives the wire. -/
theorem C18_roundtrip (id : RequestId) : RequestId.dec id.enc = some id := by
  rw [← RequestId.dec_canon, RequestId.dec_enc]

/-- C18: different ids have different encodings, and a decoded id denotes the number or text on the
wire. -/
theorem C18_injective (a b : RequestId) (h : a.enc = b.enc) : a = b := by
  have := C18_roundtrip a
  rw [h, C18_roundtrip b] at this
  exact (Option.some.inj this).symm

/-- C18: the decoded id is the number or the text on the wire, unchanged. -/
theorem C18_value (j : Json) (id : RequestId) (h : RequestId.dec j = some id) :
    (∃ i : Int32, id = .i32 i ∧ j = .int i.toInt) ∨ (∃ s, id = .str s ∧ j = .str s) := by
  rw [idOf_iff] at h
  cases h with
  | num i hi =>
    refine .inl ⟨_, rfl, ?_⟩
    congr 1
    rw [Int32.toInt_ofInt]
    simp only [Int.bmod, Int32.size]
    have h1 := hi.1
    have h2 := hi.2
    simp at h1 h2
    split <;> omega
  | str s => exact .inr ⟨s, rfl, rfl⟩

/-- Beside C18: 1 and "1" are both ids, and different. -/
example : RequestId.dec (.int 1) = some (.i32 1) ∧ RequestId.dec (.str "1") = some (.str "1") ∧
    (RequestId.i32 1).enc ≠ (RequestId.str "1").enc :=
  ⟨by decide, by decide, by simp [RequestId.enc, encI32]⟩

/-! ### C19 unusable ids -/

section
variable [Ext]

/-- C19: if the id is there but is no 32-bit integer or string, the message is neither a request nor
a response: it is a notification iff it is a usable notification, and rejected otherwise. -/
theorem C19_unusable_id (ms : Members) (hin : "id" ∈ keys ms)
    (hbad : ∀ v, ("id", v) ∈ ms → ¬ ∃ id, IdOf v id) (m : Message) :
    Message.dec (.obj ms) = some m ↔
      ∃ n, m = .notification n ∧ UsableNotification (.obj ms) n := by
  have hon : ∀ i, Once "id" ms i → ("id", i) ∈ ms := by
    intro i h
    obtain ⟨a, b, rfl, _⟩ := (once_iff ..).mpr h
    simp
  have hreq : ¬ ∃ q, UsableRequest (.obj ms) q := by
    rintro ⟨q, hq⟩
    rw [← usableRequest_iff, Request.dec_obj] at hq
    obtain ⟨i, _, _, id, h1, h2, _⟩ := hq
    exact hbad i (hon i h1) ⟨id, (idOf_iff ..).mp h2⟩
  have hres : ¬ ∃ q, UsableResponse (.obj ms) q := by
    rintro ⟨q, hq⟩
    rw [← usableResponse_iff, Response.dec_obj] at hq
    obtain ⟨⟨i, h1, h2⟩, _⟩ := hq
    exact hbad i (hon i h1) ⟨q.id, (idOf_iff ..).mp h2⟩
  cases m with
  | request r => simp only [C14_request]; simp; exact fun h => hreq ⟨r, h⟩
  | response r => simp only [C14_response]; simp [hreq]; exact fun h => hres ⟨r, h⟩
  | notification n => simp only [C14_notification]; simp [hreq, hres]

/-- Beside C19: `"id": null` with a method comes out as a custom notification. -/
example : Message.dec (.obj [("id", .null), ("method", .str "build/shutdown"), ("params", .null)]) =
    some (.notification (.custom "build/shutdown" Value.null)) := by
  rw [C19_unusable_id _ (by decide)]
  · exact ⟨_, rfl, _, "build/shutdown", rfl, ⟨[("id", .null)], _, rfl, by decide, by decide⟩,
      .inl ⟨.null, ⟨[("id", .null), ("method", .str "build/shutdown")], [], rfl, by decide,
        by decide⟩, .custom (by decide)⟩⟩
  · intro v hv
    simp at hv; subst hv
    rintro ⟨id, h⟩; cases h

/-! ### C20 rejected params -/

/-- C20 (violated by the code): a message with a valid id and method whose params are missing or not
accepted by the method, and without result and error members, is decoded as an empty response. -/
theorem C20_violated (ms : Members) (i : Json) (id : RequestId) (m : String)
    (hi : Spec.Once "id" ms i) (hid : IdOf i id) (hm : Spec.Once "method" ms (.str m))
    (hp : "params" ∉ keys ms ∨
      ∃ p, Spec.Once "params" ms p ∧ ¬ ∃ r, ReqMeaning id m (Value.ofJson p) r)
    (hr : "result" ∉ keys ms) (he : "error" ∉ keys ms) :
    Message.dec (.obj ms) = some (.response ⟨id, none, none⟩) := by
  rw [C14_response]
  refine ⟨?_, .inl ⟨ms, i, rfl, hi, hid, .inl ⟨hr, rfl⟩, .inl ⟨he, rfl⟩⟩⟩
  rintro ⟨q, hq⟩
  rw [← usableRequest_iff, Request.dec_obj] at hq
  obtain ⟨i', m', p', id', h1, h2, h3, h4, h5⟩ := hq
  rw [once_iff] at hi hm
  have e1 : i' = i := by have := h1.symm.trans hi; simpa using this
  have e2 : m' = m := by have := h3.symm.trans hm; simpa using this
  subst e1 e2
  rw [idOf_iff] at h2
  have e3 : id' = id := by
    have a := (idOf_iff ..).mpr h2
    rw [(idOf_iff ..).mpr hid] at a
    exact (Option.some.inj a).symm
  subst e3
  rcases hp with hp | ⟨p, hp, hn⟩
  · rw [keys_named] at hp
    rw [Once, hp] at h4; cases h4
  · rw [once_iff] at hp
    have e4 : p' = p := by have := h4.symm.trans hp; simpa using this
    subst e4
    exact hn ⟨q, (ofMethod_iff ..).mp h5⟩

/-- C20, the part that holds: such a message never reaches the application as a request or
notification (no handler runs with made-up params).  Missing: it is not rejected either, but comes
out as a response, see `C20_violated`. -/
theorem C20_partial (ms : Members) (i : Json) (id : RequestId) (m : String)
    (hi : Spec.Once "id" ms i) (hid : IdOf i id) (hm : Spec.Once "method" ms (.str m))
    (hp : "params" ∉ keys ms ∨
      ∃ p, Spec.Once "params" ms p ∧ ¬ ∃ r, ReqMeaning id m (Value.ofJson p) r) :
    (∀ r, Message.dec (.obj ms) ≠ some (.request r)) ∧
    ("result" ∉ keys ms → "error" ∉ keys ms →
      ∀ n, Message.dec (.obj ms) ≠ some (.notification n)) := by
  constructor
  · intro q hq
    rw [C14_request, ← usableRequest_iff, Request.dec_obj] at hq
    obtain ⟨i', m', p', id', h1, h2, h3, h4, h5⟩ := hq
    rw [once_iff] at hi hm
    have e1 : i' = i := by have := h1.symm.trans hi; simpa using this
    have e2 : m' = m := by have := h3.symm.trans hm; simpa using this
    subst e1 e2
    have e3 : id' = id := by
      rw [(idOf_iff ..).mpr hid] at h2
      exact (Option.some.inj h2).symm
    subst e3
    rcases hp with hp | ⟨p, hp, hn⟩
    · rw [keys_named] at hp
      rw [Once, hp] at h4; cases h4
    · rw [once_iff] at hp
      have e4 : p' = p := by have := h4.symm.trans hp; simpa using this
      subst e4
      exact hn ⟨q, (ofMethod_iff ..).mp h5⟩
  · intro hr he n hn
    rw [C20_violated ms i id m hi hid hm hp hr he] at hn
    cases hn

/-- Beside C20: a run request whose params lack the target. -/
example : Message.dec (.obj [("id", .int 4), ("method", .str "buildTarget/run"),
    ("params", .obj [("originId", .str "x")])]) = some (.response ⟨.i32 4, none, none⟩) := by
  refine C20_violated _ (.int 4) (.i32 4) "buildTarget/run" ⟨[], _, rfl, by decide, by decide⟩
    (IdOf.num 4 (by decide)) ⟨[("id", .int 4)], _, rfl, by decide, by decide⟩ (.inr ?_)
    (by decide) (by decide)
  refine ⟨_, ⟨[("id", .int 4), ("method", .str "buildTarget/run")], [], rfl, by decide,
    by decide⟩, ?_⟩
  rintro ⟨r, h⟩
  rw [← ofMethod_iff] at h
  have h2 : BuildTargetRun.dec (canon (.obj [("originId", .str "x")])) = none :=
    BuildTargetRun.dec_missing_target (by decide)
  simp [Request.ofMethod, h2] at h

/-- Beside C20: a shutdown request without params. -/
example : Message.dec (.obj [("id", .str "a"), ("method", .str "build/shutdown")]) =
    some (.response ⟨.str "a", none, none⟩) :=
  C20_violated _ (.str "a") (.str "a") "build/shutdown" ⟨[], _, rfl, by decide, by decide⟩
    (IdOf.str "a") ⟨[("id", .str "a")], [], rfl, by decide, by decide⟩ (.inl (by decide))
    (by decide) (by decide)

/-- C20, exactly what becomes of such a message: it is a response with that id if its result and error
members, as far as there are any, are acceptable; failing that the notification that its method and
params make up, if any; never a request. -/
theorem C20_exact (ms : Members) (i : Json) (id : RequestId) (m : String)
    (hi : Spec.Once "id" ms i) (hid : IdOf i id) (hm : Spec.Once "method" ms (.str m))
    (hp : "params" ∉ keys ms ∨
      ∃ p, Spec.Once "params" ms p ∧ ¬ ∃ r, ReqMeaning id m (Value.ofJson p) r) :
    (∀ r, Message.dec (.obj ms) ≠ some (.request r)) ∧
    (∀ r, Message.dec (.obj ms) = some (.response r) ↔
      r.id = id ∧ Spec.OptOnce "result" ms Spec.AnyValue r.result ∧
        Spec.OptOnce "error" ms Spec.ErrOf r.error) ∧
    (∀ n, Message.dec (.obj ms) = some (.notification n) ↔
      (¬ ∃ res err, Spec.OptOnce "result" ms Spec.AnyValue res ∧
        Spec.OptOnce "error" ms Spec.ErrOf err) ∧ UsableNotification (.obj ms) n) := by
  have h0 := (C20_partial ms i id m hi hid hm hp).1
  have hq : ¬ ∃ q, UsableRequest (.obj ms) q := by
    rintro ⟨q, hq⟩
    exact h0 q ((C14_request _ _).mpr hq)
  have hr : ∀ r, UsableResponse (.obj ms) r ↔ (r.id = id ∧
      Spec.OptOnce "result" ms Spec.AnyValue r.result ∧ Spec.OptOnce "error" ms Spec.ErrOf r.error) := by
    intro r
    constructor
    · rintro (⟨ms', i', h, h1, h2, h3, h4⟩ | ⟨_, _, _, h, _⟩)
      · cases h
        refine ⟨?_, h3, h4⟩
        have e1 : i' = i := by
          have := ((once_iff ..).mp h1).symm.trans ((once_iff ..).mp hi)
          simpa using this
        subst e1
        have a := (idOf_iff ..).mpr h2
        rw [(idOf_iff ..).mpr hid] at a
        exact (Option.some.inj a).symm
      · cases h
    · rintro ⟨rfl, h3, h4⟩
      exact .inl ⟨ms, i, rfl, hi, hid, h3, h4⟩
  refine ⟨h0, fun r => ?_, fun n => ?_⟩
  · rw [C14_response, hr]
    exact ⟨fun h => h.2, fun h => ⟨hq, h⟩⟩
  · rw [C14_notification]
    constructor
    · rintro ⟨_, h1, h2⟩
      refine ⟨?_, h2⟩
      rintro ⟨res, err, h3, h4⟩
      exact h1 ⟨⟨id, res, err⟩, (hr _).mpr ⟨rfl, h3, h4⟩⟩
    · rintro ⟨h1, h2⟩
      refine ⟨hq, ?_, h2⟩
      rintro ⟨r, h⟩
      obtain ⟨_, h3, h4⟩ := (hr r).mp h
      exact h1 ⟨_, _, h3, h4⟩

/-- Beside C20: with an error member that is no error object, a run request with unusable params even
turns into a notification. -/
example : ∃ n, Message.dec (.obj [("id", .int 4), ("method", .str "buildTarget/run"), ("error", .int 1),
    ("params", .obj [("originId", .str "x")])]) = some (.notification n) := by
  have hk : Spec.Once "params" [("id", .int 4), ("method", .str "buildTarget/run"), ("error", .int 1),
      ("params", .obj [("originId", .str "x")])] (.obj [("originId", .str "x")]) :=
    ⟨[("id", .int 4), ("method", .str "buildTarget/run"), ("error", .int 1)], [], rfl, by decide, by decide⟩
  refine ⟨.custom "buildTarget/run" (Value.ofJson (.obj [("originId", .str "x")])),
    ((C20_exact _ (.int 4) (.i32 4) "buildTarget/run" ⟨[], _, rfl, by decide, by decide⟩
      (IdOf.num 4 (by decide)) ⟨[("id", .int 4)], _, rfl, by decide, by decide⟩ (.inr ⟨_, hk, ?_⟩)).2.2 _).mpr
      ⟨?_, _, "buildTarget/run", rfl, ⟨[("id", .int 4)], _, rfl, by decide, by decide⟩,
        .inl ⟨_, hk, .custom (by decide)⟩⟩⟩
  · rintro ⟨r, h⟩
    rw [← ofMethod_iff] at h
    have h2 : BuildTargetRun.dec (canon (.obj [("originId", .str "x")])) = none :=
      BuildTargetRun.dec_missing_target (by decide)
    simp [Request.ofMethod, h2] at h
  · rintro ⟨res, err, _, h⟩
    have he : Spec.Once "error" [("id", .int 4), ("method", .str "buildTarget/run"), ("error", .int 1),
        ("params", .obj [("originId", .str "x")])] (.int 1) :=
      ⟨[("id", .int 4), ("method", .str "buildTarget/run")], _, rfl, by decide, by decide⟩
    rw [once_iff] at he
    rcases h with ⟨h, _⟩ | ⟨h, _⟩ | ⟨j, x, h, _, h2, _⟩
    · exact h (by decide)
    · rw [once_iff] at h
      have := he.symm.trans h
      simp at this
    · rw [once_iff] at h
      have := he.symm.trans h
      simp at this; subst this
      rcases h2 with ⟨_, _, h2, _⟩ | ⟨_, _, h2, _⟩ <;> cases h2

/-! ### C21 unknown methods -/

/-- C21: a request with an unknown method is passed through with exactly its id, method and params. -/
theorem C21_custom_request (ms : Members) (i p : Json) (id : RequestId) (m : String)
    (hi : Spec.Once "id" ms i) (hid : IdOf i id) (hm : Spec.Once "method" ms (.str m))
    (hp : Spec.Once "params" ms p) (hu : m ∉ Spec.requestMethods) :
    Message.dec (.obj ms) = some (.request (.custom id m (Value.ofJson p))) := by
  rw [C14_request]
  exact ⟨ms, i, m, p, id, rfl, hi, hid, hm, hp, .custom hu⟩

/-- C21: without an id it is passed through as a custom notification. -/
theorem C21_custom_notification (ms : Members) (p : Json) (m : String)
    (hi : "id" ∉ keys ms) (hm : Spec.Once "method" ms (.str m))
    (hp : Spec.Once "params" ms p) (hu : m ∉ Spec.notificationMethods) :
    Message.dec (.obj ms) = some (.notification (.custom m (Value.ofJson p))) := by
  rw [C14_notification]
  rw [keys_named] at hi
  refine ⟨?_, ?_, ms, m, rfl, hm, .inl ⟨p, hp, .custom hu⟩⟩
  · rintro ⟨q, hq⟩
    rw [← usableRequest_iff, Request.dec_obj] at hq
    obtain ⟨i', _, _, _, h1, _⟩ := hq
    rw [Once, hi] at h1; cases h1
  · rintro ⟨q, hq⟩
    rw [← usableResponse_iff, Response.dec_obj] at hq
    obtain ⟨⟨i', h1, _⟩, _⟩ := hq
    rw [Once, hi] at h1; cases h1

/-- Beside C21. -/
example : Message.dec (.obj [("method", .str "vendor/ping"), ("params", .str "p")]) =
    some (.notification (.custom "vendor/ping" (Value.ofJson (.str "p")))) :=
  C21_custom_notification _ _ _ (by decide) ⟨[], _, rfl, by decide, by decide⟩
    ⟨[("method", .str "vendor/ping")], [], rfl, by decide, by decide⟩ (by decide)

/-! ### C22 method names -/

/-- The built-in request variants with their BSP method names (specification table). -/
def Spec.requestName : Request → Option String
  | .initializeBuild .. => some "build/initialize"
  | .shutdown .. => some "build/shutdown"
  | .workspaceBuildTargets .. => some "workspace/buildTargets"
  | .workspaceReload .. => some "workspace/reload"
  | .buildTargetDependencyModules .. => some "buildTarget/dependencyModules"
  | .debugSessionStart .. => some "debugSession/start"
  | .buildTargetSources .. => some "buildTarget/sources"
  | .textDocumentInverseSources .. => some "textDocument/inverseSources"
  | .buildTargetDependencySources .. => some "buildTarget/dependencySources"
  | .buildTargetResources .. => some "buildTarget/resources"
  | .buildTargetRun .. => some "buildTarget/run"
  | .buildTargetCompile .. => some "buildTarget/compile"
  | .buildTargetTest .. => some "buildTarget/test"
  | .buildTargetCleanCache .. => some "buildTarget/cleanCache"
  | .custom .. => none

/-- The built-in notification variants with their method names (specification table). -/
def Spec.notificationName : Notification → Option String
  | .exit => some "build/exit"
  | .initialized => some "build/initialized"
  | .showMessage .. => some "build/showMessage"
  | .logMessage .. => some "build/logMessage"
  | .publishDiagnostics .. => some "build/publishDiagnostics"
  | .taskStart .. => some "build/taskStart"
  | .taskFinish .. => some "build/taskFinish"
  | .taskProgress .. => some "build/taskProgressing"
  | .buildTargetDidChange .. => some "buildTarget/didChange"
  | .custom .. => none

/-- C22: the reported method is the method on the wire; it is the name of the variant, or, for a
custom request, a name outside the table. -/
theorem C22_request (ms : Members) (r : Request)
    (h : Message.dec (.obj ms) = some (.request r)) :
    Spec.Once "method" ms (.str r.method) ∧
    (Spec.requestName r = some r.method ∨
      (Spec.requestName r = none ∧ r.method ∉ Spec.requestMethods)) := by
  rw [C14_request] at h
  obtain ⟨_, i, m, p, id, h0, _, _, hm, _, hr⟩ := h
  cases h0
  cases hr <;> first
    | exact ⟨hm, .inl rfl⟩
    | exact ⟨hm, .inr ⟨rfl, by assumption⟩⟩

/-- C22: likewise for notifications. -/
theorem C22_notification (ms : Members) (n : Notification)
    (h : Message.dec (.obj ms) = some (.notification n)) :
    Spec.Once "method" ms (.str n.method) ∧
    (Spec.notificationName n = some n.method ∨
      (Spec.notificationName n = none ∧ n.method ∉ Spec.notificationMethods)) := by
  rw [C14_notification] at h
  obtain ⟨_, _, _, m, h0, hm, hr⟩ := h
  cases h0
  rcases hr with ⟨p, hp, hr⟩ | ⟨_, _, hr⟩ <;>
  cases hr <;> first
    | exact ⟨hm, .inl rfl⟩
    | exact ⟨hm, .inr ⟨rfl, by assumption⟩⟩

/-- C22: built-in variants carry the names of the table, whether decoded or constructed. -/
theorem C22_names :
    (∀ r : Request, ∀ s, Spec.requestName r = some s → r.method = s ∧ s ∈ Spec.requestMethods) ∧
    (∀ n : Notification, ∀ s, Spec.notificationName n = some s →
      n.method = s ∧ s ∈ Spec.notificationMethods) := by
  constructor
  · intro r s h; cases r <;> cases h <;> exact ⟨rfl, by decide⟩
  · intro n s h; cases n <;> cases h <;> exact ⟨rfl, by decide⟩

/-- The table of names has no repetition: the correspondence is one to one. -/
theorem C22_distinct : Spec.requestMethods.Nodup ∧ Spec.notificationMethods.Nodup := by
  constructor <;> decide

/-- Beside C22: a decodable message. -/
example : Message.dec (.obj [("method", .str "build/initialized"), ("params", .obj [])]) =
    some (.notification .initialized) := by
  rw [C14_notification]
  refine ⟨?_, ?_, ?_⟩
  · rw [← request_none_iff]; rfl
  · rw [← response_none_iff]; rfl
  · exact ⟨_, _, rfl, ⟨[], _, rfl, by decide, by decide⟩,
      .inl ⟨.obj [], ⟨[("method", _)], [], rfl, by decide, by decide⟩, .initialized⟩⟩

/-! ### C28 exit and initialized -/

/-- No member `id` that could be an id: absent, or never a 32-bit integer or string, or repeated. -/
def Spec.NoUsableId (ms : Members) : Prop := ¬ ∃ i id, Spec.Once "id" ms i ∧ IdOf i id

theorem noId_not_req {ms : Members} (h : Spec.NoUsableId ms) : ¬ ∃ q, UsableRequest (.obj ms) q := by
  rintro ⟨q, ms', i, m, p, id, h0, h1, h2, _⟩
  cases h0
  exact h ⟨i, id, h1, h2⟩

theorem noId_not_resp {ms : Members} (h : Spec.NoUsableId ms) :
    ¬ ∃ q, UsableResponse (.obj ms) q := by
  rintro ⟨q, ⟨ms', i, h0, h1, h2, _⟩ | ⟨i, a, b, h0, _⟩⟩
  · cases h0
    exact h ⟨i, q.id, h1, h2⟩
  · cases h0

/-- C28: exit and initialized are recognised whatever their params, also without params. -/
theorem C28_exit_initialized (ms : Members) (hid : Spec.NoUsableId ms)
    (hp : "params" ∉ keys ms ∨ ∃ p, Spec.Once "params" ms p) :
    (Spec.Once "method" ms (.str "build/exit") →
      Message.dec (.obj ms) = some (.notification .exit)) ∧
    (Spec.Once "method" ms (.str "build/initialized") →
      Message.dec (.obj ms) = some (.notification .initialized)) := by
  constructor <;> intro hm <;> rw [C14_notification] <;>
    refine ⟨noId_not_req hid, noId_not_resp hid, ms, _, rfl, hm, ?_⟩
  · rcases hp with hp | ⟨p, hp⟩
    · exact .inr ⟨hp, .inl rfl, .exit⟩
    · exact .inl ⟨p, hp, .exit⟩
  · rcases hp with hp | ⟨p, hp⟩
    · exact .inr ⟨hp, .inr rfl, .initialized⟩
    · exact .inl ⟨p, hp, .initialized⟩

/-- C28: any other notification without params is rejected. -/
theorem C28_params_required (ms : Members) (m : String) (hid : Spec.NoUsableId ms)
    (hm : Spec.Once "method" ms (.str m)) (hp : "params" ∉ keys ms)
    (h1 : m ≠ "build/exit") (h2 : m ≠ "build/initialized") :
    Message.dec (.obj ms) = none := by
  rw [C14_rejected]
  refine ⟨noId_not_req hid, noId_not_resp hid, ?_⟩
  rintro ⟨n, ms', m', h0, hm', h⟩
  cases h0
  rw [once_iff] at hm hm'
  have e : m' = m := by have := hm'.symm.trans hm; simpa using this
  subst e
  rcases h with ⟨p, hp', _⟩ | ⟨_, h | h, _⟩
  · rw [keys_named] at hp
    rw [once_iff, Once, hp] at hp'; cases hp'
  · exact h1 h
  · exact h2 h

/-- Beside C28. -/
example : Message.dec (.obj [("method", .str "build/exit"), ("params", .int 3)]) =
      some (.notification .exit) ∧
    Message.dec (.obj [("method", .str "build/taskStart")]) = none := by
  have hn : ∀ ms : Members, "id" ∉ keys ms → Spec.NoUsableId ms := by
    rintro ms h ⟨i, id, ⟨a, b, rfl, _⟩, _⟩
    simp [keys] at h
  constructor
  · exact (C28_exit_initialized _ (hn _ (by decide)) (.inr ⟨.int 3, [_], [], rfl, by decide,
      by decide⟩)).1 ⟨[], _, rfl, by decide, by decide⟩
  · exact C28_params_required _ "build/taskStart" (hn _ (by decide))
      ⟨[], _, rfl, by decide, by decide⟩ (by decide) (by decide) (by decide)

/-! ### C61 bare method names -/

/-- C61: the conversion from a bare string succeeds exactly for the two names, giving the notification
with that method; for every other string it panics (`none`). -/
theorem C61_from_str (s : String) :
    (s = "build/exit" → Notification.ofStr s = some .exit) ∧
    (s = "build/initialized" → Notification.ofStr s = some .initialized) ∧
    (s ≠ "build/exit" → s ≠ "build/initialized" → Notification.ofStr s = none) ∧
    (∀ n, Notification.ofStr s = some n → n.method = s) := by
  refine ⟨?_, ?_, ?_, ?_⟩
  · rintro rfl; rfl
  · rintro rfl; rfl
  · intro h1 h2; simp [Notification.ofStr, h1, h2]
  · intro n h
    simp only [Notification.ofStr] at h
    split at h
    · cases h; rename_i e; exact e.symm
    · split at h
      · cases h; rename_i e; exact e.symm
      · cases h

/-- Beside C61: even another built-in name panics. -/
example : Notification.ofStr "build/taskStart" = none :=
  (C61_from_str _).2.2.1 (by decide) (by decide)

/-! ### C64 direct decoding -/

/-- C64: decoding a request directly from text fails if there is any member besides id, method and
params; otherwise it agrees with decoding through a buffered tree. -/
theorem C64_request (ms : Members) :
    ((∃ k ∈ keys ms, k ∉ ["id", "method", "params"]) →
      Request.decMode .streaming (.obj ms) = none) ∧
    ((∀ k ∈ keys ms, k ∈ ["id", "method", "params"]) →
      Request.decMode .streaming (.obj ms) = Request.dec (.obj ms)) := by
  constructor
  · rintro ⟨k, hk, hn⟩
    simp only [keys, List.mem_map] at hk
    obtain ⟨m, hm, rfl⟩ := hk
    simp only [Request.decMode]
    rw [Request.visitLoop_streaming_unknown ⟨m, hm, by simpa using hn⟩]
    rfl
  · intro h
    simp only [Request.dec, Request.decMode]
    rw [Request.visitLoop_streaming_known]
    intro m hm
    simpa using h m.1 (List.mem_map.mpr ⟨m, hm, rfl⟩)

/-- C64: likewise for notifications. -/
theorem C64_notification (ms : Members) :
    ((∃ k ∈ keys ms, k ∉ ["method", "params"]) →
      Notification.decMode .streaming (.obj ms) = none) ∧
    ((∀ k ∈ keys ms, k ∈ ["method", "params"]) →
      Notification.decMode .streaming (.obj ms) = Notification.dec (.obj ms)) := by
  constructor
  · rintro ⟨k, hk, hn⟩
    simp only [keys, List.mem_map] at hk
    obtain ⟨m, hm, rfl⟩ := hk
    simp only [Notification.decMode]
    rw [Notification.visitLoop_streaming_unknown ⟨m, hm, by simpa using hn⟩]
    rfl
  · intro h
    simp only [Notification.dec, Notification.decMode]
    rw [Notification.visitLoop_streaming_known]
    intro m hm
    simpa using h m.1 (List.mem_map.mpr ⟨m, hm, rfl⟩)

/-- Beside C64: what the library itself writes cannot be decoded directly. -/
example (m : Message) :
    Request.decMode .streaming m.enc = none ∧ Notification.decMode .streaming m.enc = none := by
  constructor
  · exact (C64_request _).1 ⟨"jsonrpc", by simp [keys], by decide⟩
  · exact (C64_notification _).1 ⟨"jsonrpc", by simp [keys], by decide⟩

end
end Bsp
