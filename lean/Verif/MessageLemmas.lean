/-
Closed forms of the decoding loops of Verif/Message.lean.
-/
import Verif.Message

set_option linter.unusedSectionVars false

namespace Bsp
open Json

/-- One local variable of `visit_map`: initial content `o`, members `l` of that name, final content
`o'`. Proof helper for the visitors of bsp-server/src/request.rs and notification.rs. -/
def Slot (f : Json → Option β) (o : Option β) (l : Members) (o' : Option β) : Prop :=
  match o, l with
  | o, [] => o' = o
  | none, [(_, v)] => ∃ x, f v = some x ∧ o' = some x
  | _, _ => False

theorem slot_cons_some {f : Json → Option β} {x : β} {m : String × Json} {l : Members}
    {o' : Option β} : ¬ Slot f (some x) (m :: l) o' := by simp [Slot]

theorem slot_cons_none {f : Json → Option β} {k : String} {v : Json} {l : Members}
    {o' : Option β} : Slot f none ((k, v) :: l) o' ↔ ∃ x, f v = some x ∧ Slot f (some x) l o' := by
  cases l with
  | nil => simp [Slot]
  | cons m l => simp [Slot]

theorem named_cons_self (k : String) (v : Json) (ms : Members) :
    named k ((k, v) :: ms) = (k, v) :: named k ms := by simp [named]

theorem named_cons_ne {k k' : String} (h : k' ≠ k) (v : Json) (ms : Members) :
    named k ((k', v) :: ms) = named k ms := by simp [named, h]

theorem named_nil (k : String) : named k [] = [] := rfl

theorem named_append (k : String) (a b : Members) : named k (a ++ b) = named k a ++ named k b := by
  simp [named]

/-- A member occurs exactly once, with value `v`.
Proof helper for the visitors of bsp-server/src/request.rs and notification.rs. -/
def Once (k : String) (ms : Members) (v : Json) : Prop := named k ms = [(k, v)]

theorem named_key {k : String} {ms : Members} {m : String × Json} (h : m ∈ named k ms) : m.1 = k := by
  simp [named] at h; exact h.2

namespace Request
variable [Ext]

theorem visitLoop_buffered (ms : Members) (a b : Acc) :
    visitLoop .buffered ms a = some b ↔
      Slot (fun v => some (Value.ofJson v)) a.id (named "id" ms) b.id ∧
      Slot decStr a.method (named "method" ms) b.method ∧
      Slot (fun v => some (Value.ofJson v)) a.params (named "params" ms) b.params := by
  induction ms generalizing a with
  | nil =>
    obtain ⟨i, m, p⟩ := a
    obtain ⟨i', m', p'⟩ := b
    simp only [visitLoop, named_nil, Slot]
    constructor
    · rintro h; cases h; exact ⟨rfl, rfl, rfl⟩
    · rintro ⟨h1, h2, h3⟩; subst h1 h2 h3; rfl
  | cons hd ms ih =>
    obtain ⟨k, v⟩ := hd
    obtain ⟨i, m, p⟩ := a
    simp only [visitLoop]
    by_cases h1 : k = "id"
    · subst h1
      simp only [if_true, named_cons_self, named_cons_ne (show "id" ≠ "method" by decide),
        named_cons_ne (show "id" ≠ "params" by decide)]
      cases i with
      | some x => simp [slot_cons_some]
      | none => simp [ih, slot_cons_none]
    · rw [if_neg h1, named_cons_ne h1]
      by_cases h2 : k = "params"
      · subst h2
        simp only [if_true, named_cons_self, named_cons_ne (show "params" ≠ "method" by decide)]
        cases p with
        | some x => simp [slot_cons_some]
        | none => simp [ih, slot_cons_none]
      · rw [if_neg h2, named_cons_ne h2]
        by_cases h3 : k = "method"
        · subst h3
          simp only [if_true, named_cons_self]
          cases m with
          | some x => simp [slot_cons_some]
          | none =>
            simp only [Option.isSome_none, Bool.false_eq_true, if_false, slot_cons_none]
            cases hv : decStr v with
            | none => simp
            | some s => simp [ih]
        · rw [if_neg h3, named_cons_ne h3, ih]

theorem visitLoop_streaming_unknown {ms : Members} {a : Acc}
    (h : ∃ m ∈ ms, m.1 ≠ "id" ∧ m.1 ≠ "method" ∧ m.1 ≠ "params") :
    visitLoop .streaming ms a = none := by
  induction ms generalizing a with
  | nil => simp at h
  | cons hd ms ih =>
    obtain ⟨k, v⟩ := hd
    obtain ⟨m, hm, hk⟩ := h
    rcases List.mem_cons.mp hm with rfl | hm
    · simp only at hk; simp [visitLoop, hk]
    · have ih' := fun a => @ih a ⟨m, hm, hk⟩
      simp only [visitLoop, ih']
      repeat' split <;> first | rfl | skip

theorem visitLoop_streaming_known {ms : Members} {a : Acc}
    (h : ∀ m ∈ ms, m.1 = "id" ∨ m.1 = "method" ∨ m.1 = "params") :
    visitLoop .streaming ms a = visitLoop .buffered ms a := by
  induction ms generalizing a with
  | nil => rfl
  | cons hd ms ih =>
    obtain ⟨k, v⟩ := hd
    have ih' := fun a => @ih a (fun m hm => h m (by simp [hm]))
    have hk := h (k, v) (by simp)
    simp only [visitLoop, ih']
    rcases hk with rfl | rfl | rfl <;> simp

theorem decMode_congr_none (j : Json) (h : ∀ ms, j ≠ .obj ms) (mode : Mode) :
    decMode mode j = none := by
  cases j <;> simp_all [decMode]

theorem finish_eq (a : Acc) : finish a =
    a.method.bind fun method => a.id.bind fun id => (RequestId.dec id.json).bind fun id =>
      a.params.bind fun params => ofMethod id method params := by
  unfold finish
  cases a.params with
  | some p => rfl
  | none =>
    have h : ∀ m : String, (m ≠ "build/shutdown" ∨ m ≠ "workspace/buildTargets" ∨
        m ≠ "workspace/reload") := by
      intro m
      by_cases h : m = "build/shutdown"
      · subst h; right; left; decide
      · exact .inl h
    simp [h]

/-- Exactly which objects decode to a request. -/
theorem dec_obj (ms : Members) (r : Request) :
    dec (.obj ms) = some r ↔
      ∃ i m p id, Once "id" ms i ∧ RequestId.dec i = some id ∧ Once "method" ms (.str m) ∧
        Once "params" ms p ∧ ofMethod id m (Value.ofJson p) = some r := by
  have key : ∀ {β} (k : String) (f : Json → Option β) (o : β),
      Slot f none (named k ms) (some o) ↔ ∃ v, Once k ms v ∧ f v = some o := by
    intro β k f o
    cases h : named k ms with
    | nil => simp [Slot, Once, h]
    | cons x l =>
      obtain ⟨k', v⟩ := x
      have hk : k' = k := named_key (m := (k', v)) (ms := ms) (by rw [h]; simp)
      subst hk
      cases l with
      | nil => simp [Slot, Once, h]
      | cons y l => simp [Slot, Once, h]
  simp only [dec, decMode, Option.bind_eq_some_iff, visitLoop_buffered, finish_eq]
  constructor
  · rintro ⟨⟨i', m', p'⟩, ⟨h1, h2, h3⟩, h⟩
    obtain ⟨m, rfl, iv, rfl, id, hid, p, rfl, hr⟩ := h
    obtain ⟨i, hi, he⟩ := (key "id" _ _).mp h1
    obtain ⟨mv, hm, hme⟩ := (key "method" _ _).mp h2
    obtain ⟨pv, hp, hpe⟩ := (key "params" _ _).mp h3
    simp only [Option.some.injEq] at he hpe
    subst he hpe
    refine ⟨i, m, pv, id, hi, ?_, ?_, hp, hr⟩
    · simpa [RequestId.dec_canon] using hid
    · cases mv <;> simp [decStr] at hme
      subst hme; exact hm
  · rintro ⟨i, m, p, id, hi, hid, hm, hp, hr⟩
    refine ⟨⟨some (Value.ofJson i), some m, some (Value.ofJson p)⟩,
      ⟨(key "id" _ _).mpr ⟨i, hi, rfl⟩, (key "method" _ _).mpr ⟨_, hm, rfl⟩,
        (key "params" _ _).mpr ⟨p, hp, rfl⟩⟩, ?_⟩
    simp [RequestId.dec_canon, hid, hr]

end Request

namespace Notification
variable [Ext]

theorem visitLoop_buffered (ms : Members) (a b : Acc) :
    visitLoop .buffered ms a = some b ↔
      Slot decStr a.method (named "method" ms) b.method ∧
      Slot (fun v => some (Value.ofJson v)) a.params (named "params" ms) b.params := by
  induction ms generalizing a with
  | nil =>
    obtain ⟨m, p⟩ := a
    obtain ⟨m', p'⟩ := b
    simp only [visitLoop, named_nil, Slot]
    constructor
    · rintro h; cases h; exact ⟨rfl, rfl⟩
    · rintro ⟨h2, h3⟩; subst h2 h3; rfl
  | cons hd ms ih =>
    obtain ⟨k, v⟩ := hd
    obtain ⟨m, p⟩ := a
    simp only [visitLoop]
    by_cases h2 : k = "params"
    · subst h2
      simp only [if_true, named_cons_self, named_cons_ne (show "params" ≠ "method" by decide)]
      cases p with
      | some x => simp [slot_cons_some]
      | none => simp [ih, slot_cons_none]
    · rw [if_neg h2, named_cons_ne h2]
      by_cases h3 : k = "method"
      · subst h3
        simp only [if_true, named_cons_self]
        cases m with
        | some x => simp [slot_cons_some]
        | none =>
          simp only [Option.isSome_none, Bool.false_eq_true, if_false, slot_cons_none]
          cases hv : decStr v with
          | none => simp
          | some s => simp [ih]
      · rw [if_neg h3, named_cons_ne h3, ih]

theorem visitLoop_streaming_unknown {ms : Members} {a : Acc}
    (h : ∃ m ∈ ms, m.1 ≠ "method" ∧ m.1 ≠ "params") :
    visitLoop .streaming ms a = none := by
  induction ms generalizing a with
  | nil => simp at h
  | cons hd ms ih =>
    obtain ⟨k, v⟩ := hd
    obtain ⟨m, hm, hk⟩ := h
    rcases List.mem_cons.mp hm with rfl | hm
    · simp only at hk; simp [visitLoop, hk]
    · have ih' := fun a => @ih a ⟨m, hm, hk⟩
      simp only [visitLoop, ih']
      repeat' split <;> first | rfl | skip

theorem visitLoop_streaming_known {ms : Members} {a : Acc}
    (h : ∀ m ∈ ms, m.1 = "method" ∨ m.1 = "params") :
    visitLoop .streaming ms a = visitLoop .buffered ms a := by
  induction ms generalizing a with
  | nil => rfl
  | cons hd ms ih =>
    obtain ⟨k, v⟩ := hd
    have ih' := fun a => @ih a (fun m hm => h m (by simp [hm]))
    have hk := h (k, v) (by simp)
    simp only [visitLoop, ih']
    rcases hk with rfl | rfl <;> simp

/-- Exactly which objects decode to a notification. -/
theorem dec_obj (ms : Members) (n : Notification) :
    dec (.obj ms) = some n ↔
      ∃ m, Once "method" ms (.str m) ∧
        ((∃ p, Once "params" ms p ∧ ofMethod m (Value.ofJson p) = some n) ∨
         (named "params" ms = [] ∧ (m = "build/exit" ∨ m = "build/initialized") ∧
          ofMethod m Value.null = some n)) := by
  have key : ∀ {β} (k : String) (f : Json → Option β) (o : β),
      Slot f none (named k ms) (some o) ↔ ∃ v, Once k ms v ∧ f v = some o := by
    intro β k f o
    cases h : named k ms with
    | nil => simp [Slot, Once, h]
    | cons x l =>
      obtain ⟨k', v⟩ := x
      have hk : k' = k := named_key (m := (k', v)) (ms := ms) (by rw [h]; simp)
      subst hk
      cases l with
      | nil => simp [Slot, Once, h]
      | cons y l => simp [Slot, Once, h]
  have keyN : ∀ {β} (k : String) (f : Json → Option β),
      Slot f none (named k ms) none ↔ named k ms = [] := by
    intro β k f
    cases h : named k ms with
    | nil => simp [Slot]
    | cons x l => cases l <;> simp [Slot]
  simp only [dec, decMode, Option.bind_eq_some_iff, visitLoop_buffered]
  constructor
  · rintro ⟨⟨m', p'⟩, ⟨h2, h3⟩, h⟩
    simp only [finish, Option.bind_eq_bind, Option.bind_eq_some_iff] at h
    obtain ⟨m, rfl, hr⟩ := h
    obtain ⟨mv, hm, hme⟩ := (key "method" _ _).mp h2
    refine ⟨m, ?_, ?_⟩
    · cases mv <;> simp [decStr] at hme
      subst hme; exact hm
    cases p' with
    | some v =>
      simp only [Option.bind_some] at hr
      obtain ⟨pv, hp, hpe⟩ := (key "params" _ _).mp h3
      simp only [Option.some.injEq] at hpe; subst hpe
      exact .inl ⟨pv, hp, hr⟩
    | none =>
      simp only at hr
      split at hr
      · cases hr
      · rename_i hne
        refine .inr ⟨(keyN "params" _).mp h3, ?_, hr⟩
        by_cases e : m = "build/exit"
        · exact .inl e
        · by_cases e' : m = "build/initialized"
          · exact .inr e'
          · exact absurd ⟨e, e'⟩ hne
  · rintro ⟨m, hm, h | h⟩
    · obtain ⟨p, hp, hr⟩ := h
      refine ⟨⟨some m, some (Value.ofJson p)⟩, ⟨(key "method" _ _).mpr ⟨_, hm, rfl⟩,
        (key "params" _ _).mpr ⟨p, hp, rfl⟩⟩, ?_⟩
      simp [finish, hr]
    · obtain ⟨hp, hm', hr⟩ := h
      refine ⟨⟨some m, none⟩, ⟨(key "method" _ _).mpr ⟨_, hm, rfl⟩, (keyN "params" _).mpr hp⟩, ?_⟩
      have : ¬ (m ≠ "build/exit" ∧ m ≠ "build/initialized") := by
        rintro ⟨h1, h2⟩; rcases hm' with h | h
        · exact h1 h
        · exact h2 h
      simp [finish, this, hr]

end Notification

/-! ### Responses -/

theorem Once.lookup {k : String} {ms : Members} {v : Json} (h : Once k ms v) :
    List.lookup k ms = some v := by
  rw [lookup_eq_named, h]; rfl

theorem dupKnown_false {fs : List String} {ms : Members} :
    dupKnown fs ms = false ↔ ∀ k ∈ fs, (named k ms).length ≤ 1 := by
  simp [dupKnown]

theorem once_of_lookup {k : String} {ms : Members} {v : Json} (h : List.lookup k ms = some v)
    (h1 : (named k ms).length ≤ 1) : Once k ms v := by
  rw [lookup_eq_named] at h
  cases hn : named k ms with
  | nil => simp [hn] at h
  | cons x l =>
    rw [hn] at h h1
    obtain ⟨k', v'⟩ := x
    have hk : k' = k := named_key (m := (k', v')) (ms := ms) (by rw [hn]; simp)
    simp at h h1
    subst hk h h1
    exact hn

theorem bind_assoc_simp {α β γ : Type} (o : Option α) (f : α → Option β) (g : β → Option γ) :
    (o.bind f).bind g = o.bind fun x => (f x).bind g := Option.bind_assoc ..

/-- An optional member: absent or null gives `none`, anything else must decode.
Proof helper for the visitors of bsp-server/src/request.rs and notification.rs. -/
def OptMember (k : String) (ms : Members) (dec : Json → Option α) (o : Option α) : Prop :=
  (named k ms = [] ∧ o = none) ∨ (Once k ms .null ∧ o = none) ∨
  ∃ j x, Once k ms j ∧ j ≠ .null ∧ dec j = some x ∧ o = some x

theorem opt_map_iff {k : String} {ms : Members} {dec : Json → Option α} {o : Option α} (i : Nat)
    (h1 : (named k ms).length ≤ 1) :
    (Src.map ms).opt i k dec = some o ↔ OptMember k ms dec o := by
  simp only [Src.opt, Src.get]
  cases hl : List.lookup k ms with
  | none =>
    have hn := (lookup_none_iff k ms).mp hl
    simp [OptMember, Once, hn, eq_comm]
  | some j =>
    have ho := once_of_lookup hl h1
    have hne : named k ms ≠ [] := by rw [ho]; simp
    have hu : ∀ j', Once k ms j' ↔ j' = j := by
      intro j'
      constructor
      · intro h; have := h.symm.trans ho; simpa using this
      · rintro rfl; exact ho
    simp only [OptMember, hne, false_and, hu, false_or]
    by_cases hj : j = .null
    · subst hj; simp [decOpt, eq_comm]
    · rw [decOpt_of_ne hj]
      have hj' : ¬ Json.null = j := fun h => hj h.symm
      simp only [Option.map_eq_some_iff, hj', false_and, false_or]
      constructor
      · rintro ⟨x, hx, rfl⟩; exact ⟨j, x, rfl, hj, hx, rfl⟩
      · rintro ⟨_, x, rfl, _, hx, rfl⟩; exact ⟨x, hx, rfl⟩

/-- Exactly which objects decode to a response. -/
theorem Response.dec_obj (ms : Members) (r : Response) :
    Response.dec (.obj ms) = some r ↔
      (∃ i, Once "id" ms i ∧ RequestId.dec i = some r.id) ∧
      OptMember "result" ms decValue r.result ∧
      OptMember "error" ms ResponseError.dec r.error := by
  simp only [Response.dec, structSrc]
  by_cases hd : dupKnown Response.fields ms = true
  · rw [if_pos hd]
    simp only [Option.bind_eq_bind, Option.bind_none, reduceCtorEq, false_iff]
    rintro ⟨⟨i, hi, _⟩, h2, h3⟩
    have : dupKnown Response.fields ms = false := by
      rw [dupKnown_false]
      intro k hk
      simp only [Response.fields, List.mem_cons, List.not_mem_nil, or_false] at hk
      rcases hk with rfl | rfl | rfl
      · rw [hi]; simp
      · rcases h2 with ⟨h, _⟩ | ⟨h, _⟩ | ⟨j, _, h, _⟩ <;> rw [h] <;> simp
      · rcases h3 with ⟨h, _⟩ | ⟨h, _⟩ | ⟨j, _, h, _⟩ <;> rw [h] <;> simp
    simp [this] at hd
  · rw [if_neg hd]
    have hd' : dupKnown Response.fields ms = false := by simpa using hd
    rw [dupKnown_false] at hd'
    have l1 := hd' "id" (by simp [Response.fields])
    have l2 := hd' "result" (by simp [Response.fields])
    have l3 := hd' "error" (by simp [Response.fields])
    simp only [Option.bind_eq_bind, Option.bind_some, Option.bind_eq_some_iff, opt_map_iff _ l2,
      opt_map_iff _ l3, Src.req, Src.get]
    constructor
    · rintro ⟨id, ⟨i, hi, hid⟩, res, hres, er, her, h⟩
      cases h
      exact ⟨⟨i, once_of_lookup hi l1, hid⟩, hres, her⟩
    · rintro ⟨⟨i, hi, hid⟩, hres, her⟩
      exact ⟨r.id, ⟨i, hi.lookup, hid⟩, r.result, hres, r.error, her, rfl⟩

/-- Exactly which arrays decode to a response (the positional form of a derived struct). -/
theorem Response.dec_arr (xs : List Json) (r : Response) :
    Response.dec (.arr xs) = some r ↔
      ∃ i a b, xs = [i, a, b] ∧ RequestId.dec i = some r.id ∧
        decOpt decValue a = some r.result ∧ decOpt ResponseError.dec b = some r.error := by
  simp only [Response.dec, structSrc, Response.fields, List.length_cons, List.length_nil]
  rcases xs with _ | ⟨i, _ | ⟨a, _ | ⟨b, _ | ⟨c, xs⟩⟩⟩⟩
  · simp [Src.req, Src.get]
  · simp [Src.req, Src.opt, Src.get]
  · simp [Src.req, Src.opt, Src.get]
  · have h0 : ¬ (0 + 1 + 1 + 1 < 0 + 1 + 1 + 1) := by omega
    simp only [List.length_cons, List.length_nil, h0, if_false, Option.bind_eq_bind,
      Option.bind_some, Src.req, Src.opt, Src.get, List.getElem?_cons_zero,
      List.getElem?_cons_succ, Option.bind_eq_some_iff, List.cons.injEq, and_true]
    constructor
    · rintro ⟨id, hid, res, hres, er, her, h⟩
      cases h
      exact ⟨i, a, b, ⟨rfl, rfl, rfl⟩, hid, hres, her⟩
    · rintro ⟨_, _, _, ⟨rfl, rfl, rfl⟩, hid, hres, her⟩
      exact ⟨r.id, hid, r.result, hres, r.error, her, rfl⟩
  · simp

theorem Response.dec_other {j : Json} (h1 : ∀ ms, j ≠ .obj ms) (h2 : ∀ xs, j ≠ .arr xs) :
    Response.dec j = none := by
  cases j <;> simp_all [Response.dec, structSrc]

end Bsp
