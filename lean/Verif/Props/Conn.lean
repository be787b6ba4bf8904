/-
Properties of the handshake and of shutdown: C41–C49.
-/
import Verif.Conn

namespace Bsp
open Conn

section
variable [Ext] [Dbg]

/-- Any request but `build/initialize`. -/
def Spec.Early (r : Request) : Prop := ∀ i p, r ≠ .initializeBuild i p

/-- The messages that will be received, without their times. -/
def Conn.World.msgs (w : World) : List Message := w.inp.map (·.2)

/-- The error response to an early request, with some text. -/
def Spec.IsRefusal (r : Request) (m : Message) : Prop :=
  ∃ text, m = .response ⟨r.id, none, some ⟨-32002, text, none⟩⟩

/-- One refusal for each request, in order. -/
inductive Spec.Refusals : List Request → List Message → Prop
  | nil : Refusals [] []
  | cons : Spec.IsRefusal r m → Refusals rs ms → Refusals (r :: rs) (m :: ms)

/-- The refusal that the code sends. -/
def refusal (r : Request) : Message :=
  .response (.serverNotInitialized r.id ("expected initialize request, got " ++ Dbg.req r))

theorem refusals (rs : List Request) : Spec.Refusals rs (rs.map refusal) := by
  induction rs with
  | nil => exact .nil
  | cons r rs ih => exact .cons ⟨_, rfl⟩ ih

omit [Dbg] in
theorem Spec.Refusals.length {rs : List Request} {ms : List Message} (h : Spec.Refusals rs ms) :
    ms.length = rs.length := by
  induction h with
  | nil => rfl
  | cons _ _ ih => simp [ih]

/-! ### The first loop -/

theorem start_refuse {w : World} {t r rest} (hi : w.inp = (t, .request r) :: rest)
    (hr : Spec.Early r) :
    initializeStart w =
      match w.out with
      | d :: ds => initializeStart { w with inp := rest, out := ds, now := max w.now t + d,
                                            sent := w.sent ++ [refusal r] }
      | [] => (match w.outEnd with | .closed => .panic | .stuck => .blocked,
               { w with inp := rest, now := max w.now t }) := by
  obtain ⟨inp, fin, out, outEnd, now, sent, calls⟩ := w
  simp only at hi
  subst hi
  conv => lhs; unfold initializeStart
  split
  · rename_i h; simp only [recv] at h; cases h; exact absurd rfl (hr _ _)
  · rename_i h
    simp only [recv] at h
    cases h
    cases out with
    | nil =>
      cases outEnd <;> split <;> rename_i h <;> simp only [send] at h <;> cases h
      · rfl
      · simp_all
      · rfl
    | cons d ds =>
      split <;> rename_i h <;> simp only [send] at h <;> cases h
      · rfl
      · simp_all
  · rename_i h; simp only [recv] at h; cases h; simp_all
  · rename_i h; simp only [recv] at h; cases h
  · rename_i h; simp only [recv] at h; cases h; simp_all

/-- Receiving and refusing early requests. -/
theorem start_early (early : List (Nat × Request)) : ∀ {w : World} {rest},
    w.inp = early.map (fun p => (p.1, .request p.2)) ++ rest → (∀ p ∈ early, Spec.Early p.2) →
    early.length ≤ w.out.length →
    ∃ now, initializeStart w = initializeStart { w with
      inp := rest, out := w.out.drop early.length, now := now,
      sent := w.sent ++ (early.map (·.2)).map refusal } := by
  induction early with
  | nil => intro w rest hi _ _; exact ⟨w.now, by simp at hi; simp [← hi]⟩
  | cons p early ih =>
    intro w rest hi he hl
    cases ho : w.out with
    | nil => simp [ho] at hl
    | cons d ds =>
      rw [start_refuse (t := p.1) (r := p.2) hi (he p (by simp)), ho]
      obtain ⟨now, h⟩ := ih (w := { w with
          inp := early.map (fun p => (p.1, .request p.2)) ++ rest, out := ds,
          now := max w.now p.1 + d, sent := w.sent ++ [refusal p.2] }) rfl
        (fun q hq => he q (List.mem_cons_of_mem _ hq)) (by simp [ho] at hl; simpa using hl)
      refine ⟨now, h.trans ?_⟩
      simp

theorem start_init {w : World} {t id p rest} (hi : w.inp = (t, .request (.initializeBuild id p)) :: rest) :
    initializeStart w = (.ok (id, p), { w with inp := rest, now := max w.now t }) := by
  obtain ⟨inp, fin, out, outEnd, now, sent, calls⟩ := w
  simp only at hi
  subst hi
  conv => lhs; unfold initializeStart
  split <;> rename_i h <;> simp only [recv] at h <;> cases h <;> simp_all

theorem start_other_text {w : World} {t m rest} (hi : w.inp = (t, m) :: rest)
    (hm : ∀ r, m ≠ .request r) :
    initializeStart w = (.err ("expected initialize request, got " ++ Dbg.msg m),
      { w with inp := rest, now := max w.now t }) := by
  obtain ⟨inp, fin, out, outEnd, now, sent, calls⟩ := w
  simp only at hi
  subst hi
  unfold initializeStart
  split <;> rename_i h <;> simp only [recv] at h <;> cases h
  · exact absurd rfl (hm _)
  · exact absurd rfl (hm _)
  · rfl
  · simp_all

theorem start_other {w : World} {t m rest} (hi : w.inp = (t, m) :: rest)
    (hm : ∀ r, m ≠ .request r) : ∃ e,
    initializeStart w = (.err e, { w with inp := rest, now := max w.now t }) := ⟨_, start_other_text hi hm⟩

theorem start_end_text {w : World} {t : Nat} (hi : w.inp = []) (hf : w.fin = .closedAt t) :
    initializeStart w = (.err ("expected initialize request, got error: " ++ Dbg.recvError),
      { w with now := max w.now t }) := by
  obtain ⟨inp, fin, out, outEnd, now, sent, calls⟩ := w
  simp only at hi hf
  subst hi hf
  unfold initializeStart
  split <;> rename_i h <;> simp only [recv] at h <;> cases h
  · rfl
  · simp_all

theorem start_end {w : World} (hi : w.inp = []) :
    (∃ t, w.fin = .closedAt t ∧ ∃ e, initializeStart w = (.err e, { w with now := max w.now t })) ∨
    (w.fin = .silent ∧ initializeStart w = (.blocked, w)) := by
  obtain ⟨inp, fin, out, outEnd, now, sent, calls⟩ := w
  simp only at hi
  subst hi
  unfold initializeStart
  cases fin with
  | closedAt t =>
    left
    refine ⟨t, rfl, ?_⟩
    split <;> rename_i h <;> simp only [recv] at h <;> cases h
    · exact ⟨_, rfl⟩
    · simp_all
  | silent =>
    right
    refine ⟨rfl, ?_⟩
    split <;> rename_i h <;> simp only [recv] at h <;> cases h
    rfl

/-- Running out of room while refusing. -/
theorem start_closed (early : List (Nat × Request)) : ∀ {w : World} {rest},
    w.inp = early.map (fun p => (p.1, .request p.2)) ++ rest → (∀ p ∈ early, Spec.Early p.2) →
    w.out.length < early.length →
    ∃ now, initializeStart w = (match w.outEnd with | .closed => .panic | .stuck => .blocked,
      { w with
        inp := (early.drop (w.out.length + 1)).map (fun p => (p.1, .request p.2)) ++ rest,
        out := [], now := now,
        sent := w.sent ++ ((early.take w.out.length).map (·.2)).map refusal }) := by
  induction early with
  | nil => intro w rest _ _ hl; simp at hl
  | cons p early ih =>
    intro w rest hi he hl
    rw [start_refuse (t := p.1) (r := p.2) hi (he p (by simp))]
    cases ho : w.out with
    | nil => exact ⟨max w.now p.1, by simp⟩
    | cons d ds =>
      obtain ⟨now, h⟩ := ih (w := { w with
          inp := early.map (fun p => (p.1, .request p.2)) ++ rest, out := ds,
          now := max w.now p.1 + d, sent := w.sent ++ [refusal p.2] }) rfl
        (fun q hq => he q (List.mem_cons_of_mem _ hq)) (by simp [ho] at hl; simpa using hl)
      refine ⟨now, h.trans ?_⟩
      simp

/-! ### The second part -/

theorem finish_closed {w : World} {id v} (ho : w.out = []) :
    initializeFinish id v w = (match w.outEnd with | .closed => .panic | .stuck => .blocked, w) := by
  unfold initializeFinish
  simp only [send, ho]
  cases w.outEnd <;> rfl

theorem finish_end {w : World} {id v d ds} (ho : w.out = d :: ds) (hi : w.inp = []) :
    ∃ now o, initializeFinish id v w = (o, { w with
        out := ds, now := now, sent := w.sent ++ [.response (.ok id v)] }) ∧
      ((∃ t e, w.fin = .closedAt t ∧ o = .err e) ∨ (w.fin = .silent ∧ o = .blocked)) := by
  obtain ⟨inp, fin, out, outEnd, now, sent, calls⟩ := w
  simp only at ho hi
  subst ho hi
  unfold initializeFinish
  simp only [send, recv]
  cases fin with
  | closedAt t => exact ⟨_, _, rfl, .inl ⟨t, _, rfl, rfl⟩⟩
  | silent => exact ⟨_, _, rfl, .inr ⟨rfl, rfl⟩⟩

theorem finish_next {w : World} {id v d ds t m rest} (ho : w.out = d :: ds)
    (hi : w.inp = (t, m) :: rest) :
    ∃ o, initializeFinish id v w = (o, { w with
        inp := rest, out := ds, now := max (w.now + d) t,
        sent := w.sent ++ [.response (.ok id v)] }) ∧
      ((m = .notification .initialized ∧ o = .ok ()) ∨
       (m ≠ .notification .initialized ∧ ∃ e, o = .err e)) := by
  unfold initializeFinish
  simp only [send, ho, recv, hi]
  by_cases hm : m = .notification .initialized
  · subst hm
    exact ⟨_, rfl, .inl ⟨rfl, rfl⟩⟩
  · split <;> rename_i h <;> cases h
    · exact absurd rfl hm
    · exact ⟨_, rfl, .inr ⟨hm, _, rfl⟩⟩
    · simp_all

/-! ### Decomposition of what is received -/

omit [Dbg] in
/-- Every list of messages consists of early requests and a rest that does not start with one. -/
theorem split_early (ms : List Message) : ∃ (early : List Request) (tail : List Message), ms = early.map .request ++ tail ∧
    (∀ r ∈ early, Spec.Early r) ∧
    (tail = [] ∨ (∃ id p rest, tail = .request (.initializeBuild id p) :: rest) ∨
      ∃ m rest, tail = m :: rest ∧ ∀ r, m ≠ .request r) := by
  induction ms with
  | nil => exact ⟨[], [], rfl, by simp, .inl rfl⟩
  | cons m ms ih =>
    by_cases hm : ∃ r, m = .request r ∧ Spec.Early r
    · obtain ⟨r, rfl, hr⟩ := hm
      obtain ⟨early, tail, rfl, h1, h2⟩ := ih
      refine ⟨r :: early, tail, rfl, ?_, h2⟩
      intro x hx
      rcases List.mem_cons.1 hx with rfl | hx
      · exact hr
      · exact h1 x hx
    · refine ⟨[], m :: ms, rfl, by simp, .inr ?_⟩
      by_cases h2 : ∃ r, m = .request r
      · obtain ⟨r, rfl⟩ := h2
        left
        cases r with
        | initializeBuild id p => exact ⟨id, p, ms, rfl⟩
        | _ => exact absurd ⟨_, rfl, fun _ _ h => by cases h⟩ hm
      · exact .inr ⟨m, ms, rfl, fun r h => h2 ⟨r, h⟩⟩

omit [Dbg] in
/-- The same with times. -/
theorem timed {inp : List (Nat × Message)} {early : List Request} {tail : List Message}
    (h : inp.map (·.2) = early.map .request ++ tail) :
    ∃ (e : List (Nat × Request)) (r : List (Nat × Message)),
      inp = e.map (fun p => (p.1, .request p.2)) ++ r ∧ e.map (·.2) = early ∧ r.map (·.2) = tail := by
  induction early generalizing inp with
  | nil => exact ⟨[], inp, rfl, rfl, h⟩
  | cons x early ih =>
    cases inp with
    | nil => simp at h
    | cons y inp =>
      simp only [List.map_cons, List.cons_append, List.cons.injEq] at h
      obtain ⟨e, r, rfl, rfl, rfl⟩ := ih h.2
      exact ⟨(y.1, x) :: e, r, by simp [← h.1], rfl, rfl⟩

/-! ### The whole handshake, by what is received -/

/-- How a call that must send ends if it cannot. -/
def Spec.noSend : OutEnd → Out α
  | .closed => .panic
  | .stuck => .blocked

/-- How a call that must receive ends if nothing comes: by an error or not at all. -/
def Spec.NoRecv (f : Fin) (o : Out α) : Prop :=
  (∃ t e, f = .closedAt t ∧ o = .err e) ∨ (f = .silent ∧ o = .blocked)

variable {process : InitializeBuild → Option Value} {w : World} {early : List Request}
  {tail : List Message}

theorem hs_room (hm : w.msgs = early.map .request ++ tail) (he : ∀ r ∈ early, Spec.Early r)
    (hl : w.out.length < early.length) :
    ∃ w', handshake process w = (Spec.noSend w.outEnd, w') ∧
      w'.sent = w.sent ++ (early.take w.out.length).map refusal ∧ w'.calls = w.calls ∧
      w'.msgs = (early.drop (w.out.length + 1)).map .request ++ tail := by
  obtain ⟨e, r, hi, rfl, rfl⟩ := timed hm
  obtain ⟨now, h⟩ := start_closed e hi (fun p hp => he p.2 (List.mem_map_of_mem hp)) (by simpa using hl)
  unfold handshake
  rw [h]
  cases w.outEnd <;> refine ⟨_, rfl, ?_, rfl, ?_⟩ <;> simp [World.msgs, List.map_take, List.map_drop] <;> rfl

theorem hs_end (hm : w.msgs = early.map .request) (he : ∀ r ∈ early, Spec.Early r)
    (hl : early.length ≤ w.out.length) :
    ∃ o w', handshake process w = (o, w') ∧ Spec.NoRecv w.fin o ∧
      w'.sent = w.sent ++ early.map refusal ∧ w'.calls = w.calls ∧ w'.msgs = [] := by
  rw [← List.append_nil (early.map _)] at hm
  obtain ⟨e, r, hi, rfl, hr⟩ := timed hm
  obtain ⟨now, h⟩ := start_early e hi (fun p hp => he p.2 (List.mem_map_of_mem hp)) (by simpa using hl)
  simp only [List.map_eq_nil_iff] at hr
  subst hr
  unfold handshake
  rw [h]
  rcases start_end (w := { w with
      inp := [], out := w.out.drop e.length, now := now,
      sent := w.sent ++ (e.map (·.2)).map refusal }) rfl with ⟨t, hf, er, h2⟩ | ⟨hf, h2⟩
  · rw [h2]; exact ⟨_, _, rfl, .inl ⟨t, er, hf, rfl⟩, rfl, rfl, rfl⟩
  · rw [h2]; exact ⟨_, _, rfl, .inr ⟨hf, rfl⟩, rfl, rfl, rfl⟩

theorem hs_other {m : Message} {rest : List Message} (hm : w.msgs = early.map .request ++ m :: rest)
    (he : ∀ r ∈ early, Spec.Early r) (hl : early.length ≤ w.out.length) (hn : ∀ r, m ≠ .request r) :
    ∃ e w', handshake process w = (.err e, w') ∧
      w'.sent = w.sent ++ early.map refusal ∧ w'.calls = w.calls ∧ w'.msgs = rest := by
  obtain ⟨e, r, hi, rfl, hr⟩ := timed hm
  obtain ⟨now, h⟩ := start_early e hi (fun p hp => he p.2 (List.mem_map_of_mem hp)) (by simpa using hl)
  cases r with
  | nil => simp at hr
  | cons x r =>
    simp only [List.map_cons, List.cons.injEq] at hr
    obtain ⟨rfl, rfl⟩ := hr
    obtain ⟨er, h2⟩ := start_other (w := { w with
        inp := x :: r, out := w.out.drop e.length, now := now,
        sent := w.sent ++ (e.map (·.2)).map refusal }) (t := x.1) (m := x.2) (rest := r) rfl hn
    unfold handshake
    rw [h, h2]
    exact ⟨_, _, rfl, rfl, rfl, rfl⟩

theorem hs_init {id p} {rest : List Message}
    (hm : w.msgs = early.map .request ++ .request (.initializeBuild id p) :: rest)
    (he : ∀ r ∈ early, Spec.Early r) (hl : early.length ≤ w.out.length) :
    ∃ w', (handshake process w).2 = w' ∧ w'.calls = w.calls ++ [p] ∧
      ((process p = none ∧ (handshake process w).1 = .panic ∧
          w'.sent = w.sent ++ early.map refusal ∧ w'.msgs = rest) ∨
       (∃ v, process p = some v ∧ w.out.length = early.length ∧
          (handshake process w).1 = Spec.noSend w.outEnd ∧
          w'.sent = w.sent ++ early.map refusal ∧ w'.msgs = rest) ∨
       (∃ v, process p = some v ∧ early.length < w.out.length ∧
          w'.sent = w.sent ++ early.map refusal ++ [.response (.ok id v)] ∧
          ((rest = [] ∧ Spec.NoRecv w.fin (handshake process w).1 ∧ w'.msgs = []) ∨
           (∃ m r, rest = m :: r ∧ w'.msgs = r ∧
             ((m = .notification .initialized ∧ (handshake process w).1 = .ok p) ∨
              (m ≠ .notification .initialized ∧ ∃ e, (handshake process w).1 = .err e)))))) := by
  obtain ⟨e, r, hi, rfl, hr⟩ := timed hm
  obtain ⟨now, h⟩ := start_early e hi (fun p hp => he p.2 (List.mem_map_of_mem hp)) (by simpa using hl)
  cases r with
  | nil => simp at hr
  | cons x r =>
    simp only [List.map_cons, List.cons.injEq] at hr
    obtain ⟨hx, rfl⟩ := hr
    have h2 := start_init (w := { w with
        inp := x :: r, out := w.out.drop e.length, now := now,
        sent := w.sent ++ (e.map (·.2)).map refusal }) (t := x.1) (id := id) (p := p) (rest := r)
        (by rw [← hx])
    unfold handshake
    rw [h, h2]
    simp only
    cases hp : process p with
    | none => exact ⟨_, rfl, rfl, .inl ⟨rfl, rfl, rfl, rfl⟩⟩
    | some v =>
      simp only
      cases hd : w.out.drop e.length with
      | nil =>
        rw [finish_closed rfl]
        have hlen : w.out.length = e.length := by
          have := congrArg List.length hd; simp at this hl; omega
        cases w.outEnd <;>
          exact ⟨_, rfl, rfl, .inr (.inl ⟨v, rfl, by simpa using hlen, rfl, rfl, rfl⟩)⟩
      | cons d ds =>
        have hlen : e.length < w.out.length := by
          have := congrArg List.length hd; simp at this; omega
        cases r with
        | nil =>
          obtain ⟨now', o, h3, h4⟩ := finish_end (w := { w with
              inp := [], out := d :: ds, now := max now x.1,
              sent := w.sent ++ (e.map (·.2)).map refusal, calls := w.calls ++ [p] })
              (id := id) (v := v) rfl rfl
          rw [h3]
          rcases h4 with ⟨t, er, hf, rfl⟩ | ⟨hf, rfl⟩
          · exact ⟨_, rfl, rfl, .inr (.inr ⟨v, rfl, by simpa using hlen, rfl,
              .inl ⟨rfl, .inl ⟨t, er, hf, rfl⟩, rfl⟩⟩)⟩
          · exact ⟨_, rfl, rfl, .inr (.inr ⟨v, rfl, by simpa using hlen, rfl,
              .inl ⟨rfl, .inr ⟨hf, rfl⟩, rfl⟩⟩)⟩
        | cons y r =>
          obtain ⟨o, h3, h4⟩ := finish_next (w := { w with
              inp := y :: r, out := d :: ds, now := max now x.1,
              sent := w.sent ++ (e.map (·.2)).map refusal, calls := w.calls ++ [p] })
              (id := id) (v := v) (t := y.1) (m := y.2) (rest := r) rfl rfl
          rw [h3]
          rcases h4 with ⟨h4, rfl⟩ | ⟨h4, er, rfl⟩
          · exact ⟨_, rfl, rfl, .inr (.inr ⟨v, rfl, by simpa using hlen, rfl,
              .inr ⟨_, _, rfl, rfl, .inl ⟨h4, rfl⟩⟩⟩)⟩
          · exact ⟨_, rfl, rfl, .inr (.inr ⟨v, rfl, by simpa using hlen, rfl,
              .inr ⟨_, _, rfl, rfl, .inr ⟨h4, _, rfl⟩⟩⟩)⟩

omit [Dbg] in
/-- The longest run of early requests contains every other. -/
theorem early_unique : ∀ {early e' : List Request} {tail t' : List Message},
    early.map Message.request ++ tail = e'.map .request ++ t' → (∀ r ∈ early, Spec.Early r) →
    (∀ r, Spec.Early r → t'.head? ≠ some (.request r)) → ∃ e2, e' = early ++ e2
  | [], e', _, _, _, _, _ => ⟨e', rfl⟩
  | x :: early, [], tail, t', h, he, ht => by
    simp only [List.map_cons, List.cons_append, List.map_nil, List.nil_append] at h
    exact absurd (by rw [← h]; rfl) (ht x (he x (by simp)))
  | x :: early, y :: e', tail, t', h, he, ht => by
    simp only [List.map_cons, List.cons_append, List.cons.injEq, Message.request.injEq] at h
    obtain ⟨e2, rfl⟩ := early_unique h.2 (fun r hr => he r (List.mem_cons_of_mem _ hr)) ht
    exact ⟨e2, by rw [h.1]; rfl⟩

omit [Dbg] in
/-- The four shapes of what is received. -/
theorem hs_cases (w : World) :
    ∃ (early : List Request) (tail : List Message), w.msgs = early.map .request ++ tail ∧
      (∀ r ∈ early, Spec.Early r) ∧ (∀ r, Spec.Early r → tail.head? ≠ some (.request r)) ∧
      ((w.out.length < early.length) ∨
       (early.length ≤ w.out.length ∧ tail = []) ∨
       (early.length ≤ w.out.length ∧ ∃ id p rest, tail = .request (.initializeBuild id p) :: rest) ∨
       (early.length ≤ w.out.length ∧ ∃ m rest, tail = m :: rest ∧ ∀ r, m ≠ .request r)) := by
  obtain ⟨early, tail, hm, he, ht⟩ := split_early w.msgs
  refine ⟨early, tail, hm, he, ?_, ?_⟩
  · intro r hr h
    rcases ht with rfl | ⟨id, p, rest, rfl⟩ | ⟨m, rest, rfl, h2⟩
    · simp at h
    · simp only [List.head?_cons, Option.some.injEq, Message.request.injEq] at h
      exact hr _ _ h.symm
    · simp only [List.head?_cons, Option.some.injEq] at h
      exact h2 _ h
  · by_cases hl : w.out.length < early.length
    · exact .inl hl
    · right
      rcases ht with h | h | h
      · exact .inl ⟨by omega, h⟩
      · exact .inr (.inl ⟨by omega, h⟩)
      · exact .inr (.inr ⟨by omega, h⟩)

omit [Ext] [Dbg] in
theorem noSend_ne_ok {e : OutEnd} {a : α} : (Spec.noSend e : Out α) ≠ .ok a := by
  cases e <;> simp [Spec.noSend]

omit [Ext] [Dbg] in
theorem noRecv_ne_ok {f : Fin} {a : α} : ¬ Spec.NoRecv f (.ok a : Out α) := by
  rintro (⟨_, _, _, h⟩ | ⟨_, h⟩) <;> cases h

omit [Ext] [Dbg] in
theorem noRecv_ne_panic {f : Fin} : ¬ Spec.NoRecv f (.panic : Out α) := by
  rintro (⟨_, _, _, h⟩ | ⟨_, h⟩) <;> cases h

/-! ### C41 -/

/-- C41: the handshake succeeds with params `p` exactly if the messages received are requests other
than build/initialize, then a build/initialize request with params `p`, then build/initialized, as
long as the responses can be sent and the handler returns. -/
theorem C41_success (process : InitializeBuild → Option Value) (w : World) (p : InitializeBuild) :
    (handshake process w).1 = .ok p ↔
      ∃ (early : List Request) (id : RequestId) (rest : List Message),
        w.msgs = early.map .request ++
          .request (.initializeBuild id p) :: .notification .initialized :: rest ∧
        (∀ r ∈ early, ∀ i q, r ≠ .initializeBuild i q) ∧
        early.length + 1 ≤ w.out.length ∧ process p ≠ none := by
  constructor
  · intro h
    obtain ⟨early, tail, hm, he, _, hl | ⟨hl, rfl⟩ | ⟨hl, id, q, rest, rfl⟩ | ⟨hl, m, rest, rfl, hn⟩⟩ :=
      hs_cases w
    · obtain ⟨w', h1, _⟩ := hs_room (process := process) hm he hl
      rw [h1] at h; exact absurd h noSend_ne_ok
    · rw [List.append_nil] at hm
      obtain ⟨o, w', h1, h2, _⟩ := hs_end (process := process) hm he hl
      rw [h1] at h; simp only at h; subst h; exact absurd h2 noRecv_ne_ok
    · obtain ⟨w', _, _, ⟨_, h1, _⟩ | ⟨_, _, _, h1, _⟩ | ⟨v, hv, hl', _, ⟨_, h1, _⟩ | ⟨m, r, rfl, _, h1⟩⟩⟩ :=
        hs_init (process := process) hm he hl
      · rw [h1] at h; cases h
      · rw [h1] at h; exact absurd h noSend_ne_ok
      · rw [h] at h1; exact absurd h1 noRecv_ne_ok
      · rcases h1 with ⟨rfl, h1⟩ | ⟨_, e, h1⟩
        · rw [h1] at h
          cases h
          exact ⟨early, id, r, hm, he, hl', by simp [hv]⟩
        · rw [h1] at h; cases h
    · obtain ⟨e, w', h1, _⟩ := hs_other (process := process) hm he hl hn
      rw [h1] at h; cases h
  · rintro ⟨early, id, rest, hm, he, hl, hp⟩
    obtain ⟨w', _, _, ⟨h0, _⟩ | ⟨_, _, h0, _⟩ | ⟨v, hv, hl', _, ⟨h0, _⟩ | ⟨m, r, h0, _, h1⟩⟩⟩ :=
      hs_init (process := process) hm he (by omega)
    · exact absurd h0 hp
    · omega
    · cases h0
    · cases h0
      rcases h1 with ⟨_, h1⟩ | ⟨h1, _⟩
      · exact h1
      · exact absurd rfl h1

/-! ### C42 -/

theorem sent_refusals (process : InitializeBuild → Option Value) (w : World) (early : List Request)
    (tail : List Message) (hm : w.msgs = early.map .request ++ tail)
    (he : ∀ r ∈ early, ∀ i q, r ≠ .initializeBuild i q) :
    ∃ more, (handshake process w).2.sent = w.sent ++ (early.take w.out.length).map refusal ++ more := by
  obtain ⟨e', t', hm', he', hh, hc⟩ := hs_cases w
  obtain ⟨e2, rfl⟩ := early_unique (hm.symm.trans hm') he hh
  have key : ∃ more, (handshake process w).2.sent =
      w.sent ++ ((early ++ e2).take w.out.length).map refusal ++ more := by
    rcases hc with hl | ⟨hl, rfl⟩ | ⟨hl, id, q, rest, rfl⟩ | ⟨hl, m, rest, rfl, hn⟩
    · obtain ⟨w', h1, h2, _⟩ := hs_room (process := process) hm' he' hl
      rw [h1]; exact ⟨[], by simp [h2]⟩
    · rw [List.append_nil] at hm'
      obtain ⟨o, w', h1, _, h2, _⟩ := hs_end (process := process) hm' he' hl
      rw [h1]; exact ⟨[], by rw [List.take_of_length_le hl]; simp [h2]⟩
    · obtain ⟨w', h1, _, ⟨_, _, h2, _⟩ | ⟨_, _, _, _, h2, _⟩ | ⟨v, hv, hl', h2, _⟩⟩ :=
        hs_init (process := process) hm' he' hl
      · rw [h1]; exact ⟨[], by rw [List.take_of_length_le hl]; simp [h2]⟩
      · rw [h1]; exact ⟨[], by rw [List.take_of_length_le hl]; simp [h2]⟩
      · rw [h1]; exact ⟨[.response (.ok id v)], by rw [List.take_of_length_le hl]; simp [h2]⟩
    · obtain ⟨e, w', h1, h2, _⟩ := hs_other (process := process) hm' he' hl hn
      rw [h1]; exact ⟨[], by rw [List.take_of_length_le hl]; simp [h2]⟩
  obtain ⟨more, key⟩ := key
  rw [List.take_append, List.map_append] at key
  exact ⟨(e2.take (w.out.length - early.length)).map refusal ++ more, by rw [key]; simp⟩

/-- C42: the requests received before build/initialize are answered, before anything else is sent, by
one error response each, in order, with their own id and code -32002 (as far as sending is possible). -/
theorem C42_refused (process : InitializeBuild → Option Value) (w : World) (early : List Request)
    (tail : List Message) (hm : w.msgs = early.map .request ++ tail)
    (he : ∀ r ∈ early, ∀ i q, r ≠ .initializeBuild i q) :
    ∃ rs more, (handshake process w).2.sent = w.sent ++ rs ++ more ∧
      Spec.Refusals (early.take w.out.length) rs := by
  obtain ⟨more, h⟩ := sent_refusals process w early tail hm he
  exact ⟨_, more, h, refusals _⟩

/-! ### C43 (violated) -/

/-- C43 is false of the code: a notification (whichever) or a response among the messages before
build/initialize makes the handshake fail, so that it is not dropped. -/
theorem C43_violated (process : InitializeBuild → Option Value) (w : World) (early : List Request)
    (m : Message) (rest : List Message) (hm : w.msgs = early.map .request ++ m :: rest)
    (he : ∀ r ∈ early, ∀ i q, r ≠ .initializeBuild i q) (hl : early.length ≤ w.out.length)
    (hn : ∀ r, m ≠ .request r) : ∃ e, (handshake process w).1 = .err e := by
  obtain ⟨e, w', h1, _⟩ := hs_other (process := process) hm he hl hn
  exact ⟨e, by rw [h1]⟩

/-- C43, exactly what happens instead: every message other than a request that comes before
build/initialize ends the handshake with an error; the handler is not called, nothing but the refusals
of the requests before it is sent, and what comes after it is left unread. -/
theorem C43_exact (process : InitializeBuild → Option Value) (w : World) (early : List Request)
    (m : Message) (rest : List Message) (hm : w.msgs = early.map .request ++ m :: rest)
    (he : ∀ r ∈ early, ∀ i q, r ≠ .initializeBuild i q) (hl : early.length ≤ w.out.length)
    (hn : ∀ r, m ≠ .request r) :
    ∃ e, (handshake process w).1 = .err e ∧ (handshake process w).2.calls = w.calls ∧
      (handshake process w).2.msgs = rest ∧
      ∃ rs, (handshake process w).2.sent = w.sent ++ rs ∧ Spec.Refusals early rs := by
  obtain ⟨e, w', h1, h2, h3, h4⟩ := hs_other (process := process) hm he hl hn
  rw [h1]
  exact ⟨e, rfl, h3, h4, _, h2, refusals _⟩

/-- C43, the part that holds: an exit notification before build/initialize ends the handshake
(with an error); the handler is not called, nothing but refusals is sent, and no further message is
consumed.  Missing: other notifications should be dropped. -/
theorem C43_exit_partial (process : InitializeBuild → Option Value) (w : World) (early : List Request)
    (rest : List Message) (hm : w.msgs = early.map .request ++ .notification .exit :: rest)
    (he : ∀ r ∈ early, ∀ i q, r ≠ .initializeBuild i q) (hl : early.length ≤ w.out.length) :
    ∃ e, (handshake process w).1 = .err e ∧ (handshake process w).2.calls = w.calls ∧
      (handshake process w).2.msgs = rest ∧
      ∃ rs, (handshake process w).2.sent = w.sent ++ rs ∧ Spec.Refusals early rs := by
  obtain ⟨e, w', h1, h2, h3, h4⟩ := hs_other (process := process) hm he hl (by simp)
  rw [h1]
  exact ⟨e, rfl, h3, h4, _, h2, refusals _⟩

/-! ### C44 -/

/-- C44: the handler is called at most once; it is called with `p` exactly if a build/initialize request
with params `p` is received after early requests that could all be refused. -/
theorem C44_calls (process : InitializeBuild → Option Value) (w : World) :
    (∀ p, (handshake process w).2.calls = w.calls ++ [p] ↔
      ∃ (early : List Request) (id : RequestId) (rest : List Message),
        w.msgs = early.map .request ++ .request (.initializeBuild id p) :: rest ∧
        (∀ r ∈ early, ∀ i q, r ≠ .initializeBuild i q) ∧ early.length ≤ w.out.length) ∧
    ((handshake process w).2.calls = w.calls ∨
      ∃ p, (handshake process w).2.calls = w.calls ++ [p]) := by
  have key : ∀ {p q : InitializeBuild}, w.calls = w.calls ++ [p] → False := by
    intro p q h
    have := congrArg List.length h
    simp at this
  refine ⟨fun p => ⟨fun h => ?_, ?_⟩, ?_⟩
  · obtain ⟨early, tail, hm, he, _, hl | ⟨hl, rfl⟩ | ⟨hl, id, q, rest, rfl⟩ | ⟨hl, m, rest, rfl, hn⟩⟩ :=
      hs_cases w
    · obtain ⟨w', h1, _, h2, _⟩ := hs_room (process := process) hm he hl
      rw [h1] at h; exact absurd (h2.symm.trans h) (key (q := p))
    · rw [List.append_nil] at hm
      obtain ⟨o, w', h1, _, _, h2, _⟩ := hs_end (process := process) hm he hl
      rw [h1] at h; exact absurd (h2.symm.trans h) (key (q := p))
    · obtain ⟨w', h1, h2, _⟩ := hs_init (process := process) hm he hl
      rw [h1, h2] at h
      have : q = p := by simpa using h
      subst this
      exact ⟨early, id, rest, hm, he, hl⟩
    · obtain ⟨e, w', h1, _, h2, _⟩ := hs_other (process := process) hm he hl hn
      rw [h1] at h; exact absurd (h2.symm.trans h) (key (q := p))
  · rintro ⟨early, id, rest, hm, he, hl⟩
    obtain ⟨w', h1, h2, _⟩ := hs_init (process := process) hm he hl
    rw [h1, h2]
  · obtain ⟨early, tail, hm, he, _, hl | ⟨hl, rfl⟩ | ⟨hl, id, q, rest, rfl⟩ | ⟨hl, m, rest, rfl, hn⟩⟩ :=
      hs_cases w
    · obtain ⟨w', h1, _, h2, _⟩ := hs_room (process := process) hm he hl
      rw [h1]; exact .inl h2
    · rw [List.append_nil] at hm
      obtain ⟨o, w', h1, _, _, h2, _⟩ := hs_end (process := process) hm he hl
      rw [h1]; exact .inl h2
    · obtain ⟨w', h1, h2, _⟩ := hs_init (process := process) hm he hl
      rw [h1]; exact .inr ⟨q, h2⟩
    · obtain ⟨e, w', h1, _, h2, _⟩ := hs_other (process := process) hm he hl hn
      rw [h1]; exact .inl h2

/-- C44: what is sent after the refusals is the response to that request with the value of the
handler. -/
theorem C44_response (process : InitializeBuild → Option Value) (w : World) (early : List Request)
    (id : RequestId) (p : InitializeBuild) (v : Value) (rest : List Message)
    (hm : w.msgs = early.map .request ++ .request (.initializeBuild id p) :: rest)
    (he : ∀ r ∈ early, ∀ i q, r ≠ .initializeBuild i q) (hl : early.length + 1 ≤ w.out.length)
    (hv : process p = some v) :
    ∃ rs, (handshake process w).2.sent =
        w.sent ++ rs ++ [.response ⟨id, some v, none⟩] ∧ Spec.Refusals early rs := by
  obtain ⟨w', h1, _, ⟨h0, _⟩ | ⟨_, _, h0, _⟩ | ⟨v', hv', _, h2, _⟩⟩ :=
    hs_init (process := process) hm he (by omega)
  · rw [hv] at h0; cases h0
  · omega
  · rw [hv] at hv'; cases hv'
    rw [h1]
    exact ⟨_, h2, refusals _⟩

/-! ### C45 -/

/-- C45: after the response to build/initialize, any next message but build/initialized is an error and
is the last one consumed; so is a hang-up. -/
theorem C45_not_initialized (process : InitializeBuild → Option Value) (w : World)
    (early : List Request) (id : RequestId) (p : InitializeBuild)
    (he : ∀ r ∈ early, ∀ i q, r ≠ .initializeBuild i q) (hl : early.length + 1 ≤ w.out.length)
    (hv : process p ≠ none) :
    (∀ m rest, w.msgs = early.map .request ++ .request (.initializeBuild id p) :: m :: rest →
      m ≠ .notification .initialized →
      ∃ e, (handshake process w).1 = .err e ∧ (handshake process w).2.msgs = rest) ∧
    (∀ t, w.msgs = early.map .request ++ [.request (.initializeBuild id p)] → w.fin = .closedAt t →
      ∃ e, (handshake process w).1 = .err e) := by
  constructor
  · intro m rest hm hn
    obtain ⟨w', h1, _, ⟨h0, _⟩ | ⟨_, _, h0, _⟩ | ⟨v', hv', _, h2, ⟨h0, _⟩ | ⟨m', r, h0, h3, h4⟩⟩⟩ :=
      hs_init (process := process) hm he (by omega)
    · exact absurd h0 hv
    · omega
    · cases h0
    · cases h0
      rcases h4 with ⟨h4, _⟩ | ⟨_, e, h4⟩
      · exact absurd h4 hn
      · exact ⟨e, h4, by rw [h1, h3]⟩
  · intro t hm hf
    obtain ⟨w', h1, _, ⟨h0, _⟩ | ⟨_, _, h0, _⟩ | ⟨v', hv', _, h2, ⟨_, h3, _⟩ | ⟨m', r, h0, h3, h4⟩⟩⟩ :=
      hs_init (process := process) hm he (by omega)
    · exact absurd h0 hv
    · omega
    · rcases h3 with ⟨_, e, _, h3⟩ | ⟨h3, _⟩
      · exact ⟨e, h3⟩
      · rw [hf] at h3; cases h3
    · cases h0

/-! ### C46 -/

/-- C46: what is consumed and sent.  The messages start with `early`, the longest run of early requests.  Only
refusals and at most one more response are sent.  What is consumed is: a part of `early` (if a refusal
cannot be sent), or `early` (if nothing follows), or `early` and the next message (a message that is no
request, or build/initialize when its response cannot be sent or nothing follows), or `early`,
build/initialize and the message after it. -/
theorem C46_exact (process : InitializeBuild → Option Value) (w : World) :
    ∃ (early : List Request) (tail used : List Message) (rs more : List Message),
      w.msgs = early.map .request ++ tail ∧ (∀ r ∈ early, ∀ i q, r ≠ .initializeBuild i q) ∧
      w.msgs = used ++ (handshake process w).2.msgs ∧
      (handshake process w).2.sent = w.sent ++ rs ++ more ∧
      Spec.Refusals (early.take w.out.length) rs ∧
      ((w.out.length < early.length ∧ more = [] ∧
          used = (early.take (w.out.length + 1)).map .request) ∨
       (tail = [] ∧ more = [] ∧ used = early.map .request) ∨
       (∃ m rest, tail = m :: rest ∧ (∀ r, m ≠ .request r) ∧ more = [] ∧
          used = early.map .request ++ [m]) ∨
       (∃ id p rest, tail = .request (.initializeBuild id p) :: rest ∧
          ((more = [] ∧ used = early.map .request ++ [.request (.initializeBuild id p)] ∧
              (process p = none ∨ w.out.length = early.length)) ∨
           (∃ v, process p = some v ∧ more = [.response ⟨id, some v, none⟩] ∧
              ((rest = [] ∧ used = early.map .request ++ [.request (.initializeBuild id p)]) ∨
               (∃ m r, rest = m :: r ∧
                 used = early.map .request ++ [.request (.initializeBuild id p), m])))))) := by
  obtain ⟨early, tail, hm, he, _, hl | ⟨hl, rfl⟩ | ⟨hl, id, q, rest, rfl⟩ | ⟨hl, m, rest, rfl, hn⟩⟩ :=
      hs_cases w
  · obtain ⟨w', h1, h2, _, h3⟩ := hs_room (process := process) hm he hl
    refine ⟨early, tail, (early.take (w.out.length + 1)).map .request, _, [], hm, he, ?_,
      by rw [h1, h2, List.append_nil], refusals _, .inl ⟨hl, rfl, rfl⟩⟩
    rw [h1, hm, h3, ← List.append_assoc, ← List.map_append, List.take_append_drop]
  · have hm' := hm
    rw [List.append_nil] at hm'
    obtain ⟨o, w', h1, _, h2, _, h3⟩ := hs_end (process := process) hm' he hl
    refine ⟨early, [], early.map .request, _, [], hm, he, ?_, ?_, refusals _, .inr (.inl ⟨rfl, rfl, rfl⟩)⟩
    · rw [h1, hm, h3]
    · rw [h1, h2, List.append_nil, List.take_of_length_le hl]
  · obtain ⟨w', h1, _, ⟨h0, _, h2, h3⟩ | ⟨v, hv, h0, _, h2, h3⟩ | ⟨v, hv, hl', h2, h3⟩⟩ :=
        hs_init (process := process) hm he hl
    · refine ⟨early, _, early.map .request ++ [.request (.initializeBuild id q)], _, [], hm, he, ?_, ?_,
        refusals _, .inr (.inr (.inr ⟨id, q, rest, rfl, .inl ⟨rfl, rfl, .inl h0⟩⟩))⟩
      · rw [h1, hm, h3]; simp
      · rw [h1, h2, List.append_nil, List.take_of_length_le hl]
    · refine ⟨early, _, early.map .request ++ [.request (.initializeBuild id q)], _, [], hm, he, ?_, ?_,
        refusals _, .inr (.inr (.inr ⟨id, q, rest, rfl, .inl ⟨rfl, rfl, .inr h0⟩⟩))⟩
      · rw [h1, hm, h3]; simp
      · rw [h1, h2, List.append_nil, List.take_of_length_le hl]
    · rcases h3 with ⟨rfl, _, h3⟩ | ⟨m, r, rfl, h3, _⟩
      · refine ⟨early, _, early.map .request ++ [.request (.initializeBuild id q)], _, _, hm, he, ?_, ?_,
          refusals _, .inr (.inr (.inr ⟨id, q, [], rfl, .inr ⟨v, hv, rfl, .inl ⟨rfl, rfl⟩⟩⟩))⟩
        · rw [h1, hm, h3]; simp
        · rw [h1, h2, List.take_of_length_le hl]; rfl
      · refine ⟨early, _, early.map .request ++ [.request (.initializeBuild id q), m], _, _, hm, he, ?_, ?_,
          refusals _, .inr (.inr (.inr ⟨id, q, _, rfl, .inr ⟨v, hv, rfl, .inr ⟨m, r, rfl, rfl⟩⟩⟩))⟩
        · rw [h1, hm, h3]; simp
        · rw [h1, h2, List.take_of_length_le hl]; rfl
  · obtain ⟨e, w', h1, h2, _, h3⟩ := hs_other (process := process) hm he hl hn
    refine ⟨early, _, early.map .request ++ [m], _, [], hm, he, ?_, ?_, refusals _,
      .inr (.inr (.inl ⟨m, rest, rfl, hn, rfl, rfl⟩))⟩
    · rw [h1, hm, h3]; simp
    · rw [h1, h2, List.append_nil, List.take_of_length_le hl]

/-! ### C47 -/

/-- C47: if the peer hangs up before build/initialize, or between it and build/initialized, the
handshake returns an error, after having answered what it received. -/
theorem C47_hang_up (process : InitializeBuild → Option Value) (w : World) (early : List Request)
    (t : Nat) (hf : w.fin = .closedAt t) (he : ∀ r ∈ early, ∀ i q, r ≠ .initializeBuild i q) :
    (w.msgs = early.map .request → early.length ≤ w.out.length →
      ∃ e rs, (handshake process w).1 = .err e ∧ (handshake process w).2.sent = w.sent ++ rs ∧
        Spec.Refusals early rs) ∧
    (∀ id p v, w.msgs = early.map .request ++ [.request (.initializeBuild id p)] →
      early.length + 1 ≤ w.out.length → process p = some v →
      ∃ e rs, (handshake process w).1 = .err e ∧
        (handshake process w).2.sent = w.sent ++ rs ++ [.response ⟨id, some v, none⟩] ∧
        Spec.Refusals early rs) := by
  constructor
  · intro hm hl
    obtain ⟨o, w', h1, h2, h3, _⟩ := hs_end (process := process) hm he hl
    rcases h2 with ⟨_, e, _, rfl⟩ | ⟨h2, _⟩
    · rw [h1]; exact ⟨e, _, rfl, h3, refusals _⟩
    · rw [hf] at h2; cases h2
  · intro id p v hm hl hv
    obtain ⟨e, h1⟩ := (C45_not_initialized process w early id p he hl (by simp [hv])).2 t hm hf
    obtain ⟨rs, h2, h3⟩ := C44_response process w early id p v [] hm he hl hv
    exact ⟨e, rs, h1, h2, h3⟩

/-- C47: the handshake panics exactly if the handler does or it has to send while the sending side is
closed: a refusal of an early request, or the response to build/initialize. -/
theorem C47_panic (process : InitializeBuild → Option Value) (w : World) :
    (handshake process w).1 = .panic ↔
      ∃ (early : List Request) (tail : List Message), w.msgs = early.map .request ++ tail ∧
        (∀ r ∈ early, ∀ i q, r ≠ .initializeBuild i q) ∧
        ((w.outEnd = .closed ∧ w.out.length < early.length) ∨
         (∃ id p rest, tail = .request (.initializeBuild id p) :: rest ∧
            early.length ≤ w.out.length ∧
            (process p = none ∨ (w.outEnd = .closed ∧ w.out.length = early.length)))) := by
  constructor
  · intro h
    obtain ⟨early, tail, hm, he, _, hl | ⟨hl, rfl⟩ | ⟨hl, id, q, rest, rfl⟩ | ⟨hl, m, rest, rfl, hn⟩⟩ :=
      hs_cases w
    · refine ⟨early, tail, hm, he, .inl ⟨?_, hl⟩⟩
      obtain ⟨w', h1, _⟩ := hs_room (process := process) hm he hl
      rw [h1] at h
      cases ho : w.outEnd with
      | closed => rfl
      | stuck => rw [ho] at h; cases h
    · rw [List.append_nil] at hm
      obtain ⟨o, w', h1, h2, _⟩ := hs_end (process := process) hm he hl
      rw [h1] at h; simp only at h; subst h; exact absurd h2 noRecv_ne_panic
    · refine ⟨early, _, hm, he, .inr ⟨id, q, rest, rfl, hl, ?_⟩⟩
      obtain ⟨w', _, _, ⟨h0, h1, _⟩ | ⟨_, _, h0, h1, _⟩ | ⟨v, hv, hl', _, ⟨_, h1, _⟩ | ⟨m, r, rfl, _, h1⟩⟩⟩ :=
        hs_init (process := process) hm he hl
      · exact .inl h0
      · right
        rw [h1] at h
        cases ho : w.outEnd with
        | closed => exact ⟨rfl, h0⟩
        | stuck => rw [ho] at h; cases h
      · rw [h] at h1; exact absurd h1 noRecv_ne_panic
      · rcases h1 with ⟨_, h1⟩ | ⟨_, e, h1⟩ <;> rw [h1] at h <;> cases h
    · obtain ⟨e, w', h1, _⟩ := hs_other (process := process) hm he hl hn
      rw [h1] at h; cases h
  · rintro ⟨early, tail, hm, he, ⟨ho, hl⟩ | ⟨id, p, rest, rfl, hl, h⟩⟩
    · obtain ⟨w', h1, _⟩ := hs_room (process := process) hm he hl
      rw [h1, ho]; rfl
    · obtain ⟨w', _, _, ⟨_, h1, _⟩ | ⟨_, h0, _, h1, _⟩ | ⟨v, hv, hl', _⟩⟩ :=
        hs_init (process := process) hm he hl
      · exact h1
      · rcases h with h | ⟨h, _⟩
        · rw [h] at h0; cases h0
        · rw [h1, h]; rfl
      · rcases h with h | ⟨_, h⟩
        · rw [h] at hv; cases hv
        · omega

/-- C47: the handshake returns an error exactly if a message other than a request comes before
build/initialize, or something other than build/initialized comes after the response to it, or the
connection is closed before either; in each case what had to be sent until then could be sent. -/
theorem C47_error (process : InitializeBuild → Option Value) (w : World) :
    (∃ e, (handshake process w).1 = .err e) ↔
      ∃ (early : List Request) (tail : List Message), w.msgs = early.map .request ++ tail ∧
        (∀ r ∈ early, ∀ i q, r ≠ .initializeBuild i q) ∧ early.length ≤ w.out.length ∧
        ((tail = [] ∧ ∃ t, w.fin = .closedAt t) ∨
         (∃ m rest, tail = m :: rest ∧ ∀ r, m ≠ .request r) ∨
         (∃ id p v rest, tail = .request (.initializeBuild id p) :: rest ∧ process p = some v ∧
            early.length < w.out.length ∧
            ((rest = [] ∧ ∃ t, w.fin = .closedAt t) ∨
             (∃ m r, rest = m :: r ∧ m ≠ .notification .initialized)))) := by
  constructor
  · rintro ⟨e, h⟩
    obtain ⟨early, tail, hm, he, _, hl | ⟨hl, rfl⟩ | ⟨hl, id, q, rest, rfl⟩ | ⟨hl, m, rest, rfl, hn⟩⟩ :=
      hs_cases w
    · obtain ⟨w', h1, _⟩ := hs_room (process := process) hm he hl
      rw [h1] at h
      cases ho : w.outEnd <;> rw [ho] at h <;> cases h
    · refine ⟨early, [], hm, he, hl, .inl ⟨rfl, ?_⟩⟩
      rw [List.append_nil] at hm
      obtain ⟨o, w', h1, h2, _⟩ := hs_end (process := process) hm he hl
      rw [h1] at h; simp only at h; subst h
      rcases h2 with ⟨t, _, hf, _⟩ | ⟨_, h2⟩
      · exact ⟨t, hf⟩
      · cases h2
    · refine ⟨early, _, hm, he, hl, .inr (.inr ?_)⟩
      obtain ⟨w', _, _, ⟨h0, h1, _⟩ | ⟨_, _, h0, h1, _⟩ | ⟨v, hv, hl', _, ⟨hr, h1, _⟩ | ⟨m, r, hr, _, h1⟩⟩⟩ :=
        hs_init (process := process) hm he hl
      · rw [h1] at h; cases h
      · rw [h1] at h
        cases ho : w.outEnd <;> rw [ho] at h <;> cases h
      · refine ⟨id, q, v, rest, rfl, hv, hl', .inl ⟨hr, ?_⟩⟩
        rw [h] at h1
        rcases h1 with ⟨t, _, hf, _⟩ | ⟨_, h2⟩
        · exact ⟨t, hf⟩
        · cases h2
      · refine ⟨id, q, v, rest, rfl, hv, hl', .inr ⟨m, r, hr, ?_⟩⟩
        rcases h1 with ⟨_, h1⟩ | ⟨h1, _⟩
        · rw [h1] at h; cases h
        · exact h1
    · exact ⟨early, _, hm, he, hl, .inr (.inl ⟨m, rest, rfl, hn⟩)⟩
  · rintro ⟨early, tail, hm, he, hl, ⟨rfl, t, hf⟩ | ⟨m, rest, rfl, hn⟩ | ⟨id, p, v, rest, rfl, hv, hl', h⟩⟩
    · rw [List.append_nil] at hm
      obtain ⟨o, w', h1, h2, _⟩ := hs_end (process := process) hm he hl
      rw [h1]
      rcases h2 with ⟨_, e, _, h2⟩ | ⟨h2, _⟩
      · exact ⟨e, h2⟩
      · rw [hf] at h2; cases h2
    · obtain ⟨e, w', h1, _⟩ := hs_other (process := process) hm he hl hn
      exact ⟨e, by rw [h1]⟩
    · obtain ⟨w', _, _, ⟨h0, _⟩ | ⟨_, _, h0, _⟩ | ⟨v', _, _, _, ⟨hr, h1, _⟩ | ⟨m, r, hr, _, h1⟩⟩⟩ :=
        hs_init (process := process) hm he hl
      · rw [hv] at h0; cases h0
      · omega
      · rcases h with ⟨_, t, hf⟩ | ⟨m, r, h, _⟩
        · rcases h1 with ⟨_, e, _, h2⟩ | ⟨h2, _⟩
          · exact ⟨e, h2⟩
          · rw [hf] at h2; cases h2
        · rw [hr] at h; cases h
      · rcases h with ⟨h, _⟩ | ⟨m', r', h, hn⟩
        · rw [hr] at h; cases h
        · rw [hr] at h; cases h
          rcases h1 with ⟨h1, _⟩ | ⟨_, h1⟩
          · exact absurd h1 hn
          · exact h1

/-- C47: the handshake waits forever exactly if the peer neither sends the message that is due nor
hangs up, or a message that is due to be sent is never taken. -/
theorem C47_waits (process : InitializeBuild → Option Value) (w : World) :
    (handshake process w).1 = .blocked ↔
      ∃ (early : List Request) (tail : List Message), w.msgs = early.map .request ++ tail ∧
        (∀ r ∈ early, ∀ i q, r ≠ .initializeBuild i q) ∧
        ((w.outEnd = .stuck ∧ w.out.length < early.length) ∨
         (early.length ≤ w.out.length ∧ tail = [] ∧ w.fin = .silent) ∨
         (early.length ≤ w.out.length ∧
          ∃ id p v rest, tail = .request (.initializeBuild id p) :: rest ∧ process p = some v ∧
            ((w.outEnd = .stuck ∧ w.out.length = early.length) ∨
             (early.length < w.out.length ∧ rest = [] ∧ w.fin = .silent)))) := by
  constructor
  · intro h
    obtain ⟨early, tail, hm, he, _, hl | ⟨hl, rfl⟩ | ⟨hl, id, q, rest, rfl⟩ | ⟨hl, m, rest, rfl, hn⟩⟩ :=
      hs_cases w
    · refine ⟨early, tail, hm, he, .inl ⟨?_, hl⟩⟩
      obtain ⟨w', h1, _⟩ := hs_room (process := process) hm he hl
      rw [h1] at h
      cases ho : w.outEnd with
      | stuck => rfl
      | closed => rw [ho] at h; cases h
    · refine ⟨early, [], hm, he, .inr (.inl ⟨hl, rfl, ?_⟩)⟩
      rw [List.append_nil] at hm
      obtain ⟨o, w', h1, h2, _⟩ := hs_end (process := process) hm he hl
      rw [h1] at h; simp only at h; subst h
      rcases h2 with ⟨_, _, _, h2⟩ | ⟨h2, _⟩
      · cases h2
      · exact h2
    · refine ⟨early, _, hm, he, .inr (.inr ⟨hl, ?_⟩)⟩
      obtain ⟨w', _, _, ⟨h0, h1, _⟩ | ⟨v, hv, h0, h1, _⟩ | ⟨v, hv, hl', _, ⟨hr, h1, _⟩ | ⟨m, r, hr, _, h1⟩⟩⟩ :=
        hs_init (process := process) hm he hl
      · rw [h1] at h; cases h
      · refine ⟨id, q, v, rest, rfl, hv, .inl ⟨?_, h0⟩⟩
        rw [h1] at h
        cases ho : w.outEnd with
        | stuck => rfl
        | closed => rw [ho] at h; cases h
      · refine ⟨id, q, v, rest, rfl, hv, .inr ⟨hl', hr, ?_⟩⟩
        rw [h] at h1
        rcases h1 with ⟨_, _, _, h2⟩ | ⟨h2, _⟩
        · cases h2
        · exact h2
      · rcases h1 with ⟨_, h1⟩ | ⟨_, e, h1⟩ <;> rw [h1] at h <;> cases h
    · obtain ⟨e, w', h1, _⟩ := hs_other (process := process) hm he hl hn
      rw [h1] at h; cases h
  · rintro ⟨early, tail, hm, he, ⟨ho, hl⟩ | ⟨hl, rfl, hf⟩ | ⟨hl, id, p, v, rest, rfl, hv, h⟩⟩
    · obtain ⟨w', h1, _⟩ := hs_room (process := process) hm he hl
      rw [h1, ho]; rfl
    · rw [List.append_nil] at hm
      obtain ⟨o, w', h1, h2, _⟩ := hs_end (process := process) hm he hl
      rw [h1]
      rcases h2 with ⟨_, _, h2, _⟩ | ⟨_, h2⟩
      · rw [hf] at h2; cases h2
      · exact h2
    · obtain ⟨w', _, _, ⟨h0, _⟩ | ⟨_, _, h0, h1, _⟩ | ⟨v', _, hl', _, h1⟩⟩ :=
        hs_init (process := process) hm he hl
      · rw [hv] at h0; cases h0
      · rcases h with ⟨ho, _⟩ | ⟨h, _⟩
        · rw [h1, ho]; rfl
        · omega
      · rcases h with ⟨_, h⟩ | ⟨_, rfl, hf⟩
        · omega
        · rcases h1 with ⟨_, h1, _⟩ | ⟨m, r, hr, _⟩
          · rcases h1 with ⟨_, _, h2, _⟩ | ⟨_, h2⟩
            · rw [hf] at h2; cases h2
            · exact h2
          · cases hr

/-- C47: the handshake never waits for ever if the peer eventually hangs up and sends do not block. -/
theorem C47_ends (process : InitializeBuild → Option Value) (w : World) (t : Nat)
    (hf : w.fin = .closedAt t) (ho : w.outEnd = .closed) : (handshake process w).1 ≠ .blocked := by
  intro h
  have nr : ¬ Spec.NoRecv w.fin (.blocked : Out InitializeBuild) := by
    rintro (⟨_, _, _, h⟩ | ⟨h, _⟩)
    · cases h
    · rw [hf] at h; cases h
  obtain ⟨early, tail, hm, he, _, hl | ⟨hl, rfl⟩ | ⟨hl, id, q, rest, rfl⟩ | ⟨hl, m, rest, rfl, hn⟩⟩ :=
      hs_cases w
  · obtain ⟨w', h1, _⟩ := hs_room (process := process) hm he hl
    rw [h1, ho] at h; cases h
  · rw [List.append_nil] at hm
    obtain ⟨o, w', h1, h2, _⟩ := hs_end (process := process) hm he hl
    rw [h1] at h; simp only at h; subst h; exact nr h2
  · obtain ⟨w', _, _, ⟨h0, h1, _⟩ | ⟨_, _, h0, h1, _⟩ | ⟨v, hv, hl', _, ⟨_, h1, _⟩ | ⟨m, r, rfl, _, h1⟩⟩⟩ :=
        hs_init (process := process) hm he hl
    · rw [h1] at h; cases h
    · rw [h1, ho] at h; cases h
    · rw [h] at h1; exact nr h1
    · rcases h1 with ⟨_, h1⟩ | ⟨_, e, h1⟩ <;> rw [h1] at h <;> cases h
  · obtain ⟨e, w', h1, _⟩ := hs_other (process := process) hm he hl hn
    rw [h1] at h; cases h

/-! ### C48, C49 -/

/-- C48: a request other than build/shutdown is left alone: the answer is `false`, nothing is sent,
nothing is received, no time passes. -/
theorem C48_other (r : Request) (hr : ∀ id, r ≠ .shutdown id) (w : World) :
    handleShutdown r w = (.ok false, w) := by
  cases r <;> first | rfl | exact absurd rfl (hr _)

/-- When the wait for exit starts: after the acknowledgement was sent (or could not be). -/
def Spec.ackDone (w : World) : Option Nat :=
  match w.out, w.outEnd with
  | d :: _, _ => some (w.now + d)
  | [], .closed => some w.now
  | [], .stuck => none

/-- C49: for build/shutdown the answer is `true` exactly if build/exit is the next message and arrives
within 30 seconds after the acknowledgement. -/
theorem C49_exit (id : RequestId) (w : World) :
    (handleShutdown (.shutdown id) w).1 = .ok true ↔
      ∃ t r start, w.inp = (t, .notification .exit) :: r ∧ Spec.ackDone w = some start ∧
        t ≤ start + 30000 := by
  obtain ⟨inp, fin, out, outEnd, now, sent, calls⟩ := w
  have key : ∀ (w1 : World), (awaitExit w1).1 = .ok true ↔
      ∃ t r, w1.inp = (t, .notification .exit) :: r ∧ t ≤ w1.now + 30000 := by
    intro w1
    constructor
    · intro h
      unfold awaitExit at h
      split at h <;> rename_i h1 <;> try (cases h; done)
      unfold recvTimeout at h1
      split at h1
      · rename_i hi
        split at h1
        · rename_i hle
          cases h1; exact ⟨_, _, hi, hle⟩
        · cases h1
      · split at h1
        · split at h1 <;> cases h1
        · cases h1
    · rintro ⟨t, r, hi, hle⟩
      have : recvTimeout 30000 w1 = (.msg (.notification .exit), { w1 with inp := r, now := max w1.now t }) := by
        simp [recvTimeout, hi, hle]
      rw [awaitExit, this]
  cases out with
  | cons d ds =>
    simp only [handleShutdown, send, Spec.ackDone]
    rw [key]
    constructor
    · rintro ⟨t, r, h1, h2⟩; exact ⟨t, r, _, h1, rfl, h2⟩
    · rintro ⟨t, r, _, h1, h2, h3⟩; cases h2; exact ⟨t, r, h1, h3⟩
  | nil =>
    cases outEnd with
    | closed =>
      simp only [handleShutdown, send, Spec.ackDone]
      rw [key]
      constructor
      · rintro ⟨t, r, h1, h2⟩; exact ⟨t, r, _, h1, rfl, h2⟩
      · rintro ⟨t, r, _, h1, h2, h3⟩; cases h2; exact ⟨t, r, h1, h3⟩
    | stuck => simp [handleShutdown, send, Spec.ackDone]

/-- C49: in every other case the result is an error (or the send blocks); it never panics and never
returns `false`. -/
theorem C49_otherwise (id : RequestId) (w : World)
    (h : (handleShutdown (.shutdown id) w).1 ≠ .ok true) :
    (Spec.ackDone w ≠ none ∧ ∃ e, (handleShutdown (.shutdown id) w).1 = .err e) ∨
    (Spec.ackDone w = none ∧ (handleShutdown (.shutdown id) w).1 = .blocked) := by
  obtain ⟨inp, fin, out, outEnd, now, sent, calls⟩ := w
  have key : ∀ w1 : World, (awaitExit w1).1 ≠ .ok true → ∃ e, (awaitExit w1).1 = .err e := by
    intro w1
    unfold awaitExit
    split
    · exact fun h => absurd rfl h
    all_goals exact fun _ => ⟨_, rfl⟩
  cases out with
  | cons d ds =>
    left
    refine ⟨by simp [Spec.ackDone], ?_⟩
    simp only [handleShutdown, send] at h ⊢
    exact key _ h
  | nil =>
    cases outEnd with
    | closed =>
      left
      refine ⟨by simp [Spec.ackDone], ?_⟩
      simp only [handleShutdown, send] at h ⊢
      exact key _ h
    | stuck => right; simp [handleShutdown, send, Spec.ackDone]

omit [Dbg] in
theorem recvTimeout_world (n : Nat) (w : World) :
    (recvTimeout n w).2.sent = w.sent ∧ (recvTimeout n w).2.calls = w.calls ∧
    (recvTimeout n w).2.out = w.out ∧
    ∃ used, w.inp = used ++ (recvTimeout n w).2.inp ∧ used.length ≤ 1 := by
  unfold recvTimeout
  split
  · rename_i hi
    split
    · exact ⟨rfl, rfl, rfl, [_], hi, by simp⟩
    · exact ⟨rfl, rfl, rfl, [], by simp, by simp⟩
  · split
    · split
      · exact ⟨rfl, rfl, rfl, [], by simp, by simp⟩
      · exact ⟨rfl, rfl, rfl, [], by simp, by simp⟩
    · exact ⟨rfl, rfl, rfl, [], by simp, by simp⟩

/-- C49: exactly one response is sent (if sending is possible), with the id of the request and a null
result, and at most one message is consumed. -/
theorem C49_response (id : RequestId) (w : World) :
    (w.out ≠ [] → (handleShutdown (.shutdown id) w).2.sent =
      w.sent ++ [.response ⟨id, some Value.null, none⟩]) ∧
    (w.out = [] → (handleShutdown (.shutdown id) w).2.sent = w.sent) ∧
    ∃ used, w.msgs = used ++ (handleShutdown (.shutdown id) w).2.msgs ∧ used.length ≤ 1 := by
  obtain ⟨inp, fin, out, outEnd, now, sent, calls⟩ := w
  have e : ∀ (w1 : World), (awaitExit w1).2 = (recvTimeout 30000 w1).2 := by
    intro w1
    unfold awaitExit
    split <;> rename_i h <;> rw [h]
  have key : ∀ w1 : World, ∃ used, w1.msgs = used ++ (recvTimeout 30000 w1).2.msgs ∧ used.length ≤ 1 := by
    intro w1
    obtain ⟨_, _, _, used, h1, h2⟩ := recvTimeout_world 30000 w1
    exact ⟨used.map (·.2), by simp only [World.msgs]; rw [← List.map_append, ← h1], by simpa using h2⟩
  cases out with
  | cons d ds =>
    simp only [handleShutdown, send, e]
    exact ⟨fun _ => (recvTimeout_world _ _).1, by simp, key ⟨inp, fin, ds, outEnd, now + d, _, calls⟩⟩
  | nil =>
    cases outEnd with
    | closed =>
      simp only [handleShutdown, send, e]
      exact ⟨by simp, fun _ => (recvTimeout_world _ _).1, key _⟩
    | stuck =>
      simp only [handleShutdown, send]
      exact ⟨by simp, by simp, [], rfl, by simp⟩

end

/-! ### Concrete cases -/

section
attribute [local instance] Ext.sample

/-- Formatting is irrelevant for the examples. -/
@[reducible] def Dbg.sample : Dbg := ⟨fun c => c.toNat < 32 || c.toNat = 127, fun _ => ['p'], fun _ => ['n'],
  fun _ => ['v'], "e", "t", "d"⟩
attribute [local instance] Dbg.sample

/-- Params of build/initialize. -/
def sampleInit : InitializeBuild where
  displayName := "c"
  version := "1"
  bspVersion := "2"
  rootUri := ⟨"file:///", by decide⟩
  capabilities := ⟨[]⟩
  data := none

/-- Two early requests, then the handshake, then one more request. -/
def sampleWorld : World where
  inp := [(1, .request (.shutdown (.i32 1))), (2, .request (.workspaceReload (.str "a"))),
    (3, .request (.initializeBuild (.i32 2) sampleInit)), (9, .notification .initialized),
    (9, .request (.workspaceBuildTargets (.i32 3)))]
  fin := .silent
  out := [0, 1, 0, 0]
  outEnd := .closed

/-- Beside C41, C42, C44, C46: this handshake succeeds, refusing the two requests. -/
example : (handshake (fun _ => some Value.null) sampleWorld).1 = .ok sampleInit := by
  refine (C41_success _ _ _).2 ⟨[.shutdown (.i32 1), .workspaceReload (.str "a")], .i32 2,
    [.request (.workspaceBuildTargets (.i32 3))], rfl, ?_, by decide, by simp⟩
  intro r hr
  simp only [List.mem_cons, List.not_mem_nil, or_false] at hr
  rcases hr with rfl | rfl <;> intro i q h <;> cases h

/-- Beside C47: with room for one response only it panics. -/
example : (handshake (fun _ => some Value.null) { sampleWorld with out := [0] }).1 = .panic := by
  refine (C47_panic _ _).2 ⟨[.shutdown (.i32 1), .workspaceReload (.str "a")], _, rfl, ?_, .inl ⟨rfl, by decide⟩⟩
  intro r hr
  simp only [List.mem_cons, List.not_mem_nil, or_false] at hr
  rcases hr with rfl | rfl <;> intro i q h <;> cases h

/-- Beside C43: an early notification makes the same handshake fail. -/
example : ∃ e, (handshake (fun _ => some Value.null)
    { sampleWorld with inp := (0, .notification .initialized) :: sampleWorld.inp }).1 = .err e :=
  C43_violated _ _ [] _ _ rfl (by simp) (by decide) (by simp)

/-- Beside C43: the handshake stops at the notification, the request after it stays unread. -/
example : ∃ e, (handshake (fun _ => some Value.null)
      { sampleWorld with inp := [(0, .notification .initialized), (1, .request (.shutdown (.i32 1)))] }).1 = .err e ∧
    (handshake (fun _ => some Value.null)
      { sampleWorld with inp := [(0, .notification .initialized), (1, .request (.shutdown (.i32 1)))] }).2.msgs
        = [.request (.shutdown (.i32 1))] := by
  obtain ⟨e, h1, _, h2, _⟩ := C43_exact (fun _ => some Value.null)
    { sampleWorld with inp := [(0, .notification .initialized), (1, .request (.shutdown (.i32 1)))] }
    [] _ _ rfl (by simp) (by decide) (by simp)
  exact ⟨e, h1, h2⟩

/-- Beside C47: the peer hangs up, or falls silent, after one request that is refused. -/
example : (∃ e, (handshake (fun _ => some Value.null)
      { sampleWorld with inp := [(0, .request (.shutdown (.i32 1)))], fin := .closedAt 5 }).1 = .err e) ∧
    (handshake (fun _ => some Value.null)
      { sampleWorld with inp := [(0, .request (.shutdown (.i32 1)))], fin := .silent }).1 = .blocked := by
  constructor
  · exact (C47_error _ _).2 ⟨[.shutdown (.i32 1)], [], rfl, by simp, by decide, .inl ⟨rfl, 5, rfl⟩⟩
  · exact (C47_waits _ _).2 ⟨[.shutdown (.i32 1)], [], rfl, by simp, .inr (.inl ⟨by decide, rfl, rfl⟩)⟩

/-- Beside C49: exit after exactly 30 seconds, and one millisecond later. -/
example : (handleShutdown (.shutdown (.i32 1))
      { sampleWorld with inp := [(30000, .notification .exit)] }).1 = .ok true ∧
    (handleShutdown (.shutdown (.i32 1))
      { sampleWorld with inp := [(30001, .notification .exit)] }).1 ≠ .ok true := by
  constructor
  · exact (C49_exit _ _).2 ⟨30000, [], 0, rfl, rfl, by decide⟩
  · intro h
    obtain ⟨t, r, start, h1, h2, h3⟩ := (C49_exit _ _).1 h
    cases h1; cases h2; exact absurd h3 (by decide)

/-- The early requests of `sampleWorld`. -/
theorem sampleEarly : ∀ r ∈ [Request.shutdown (.i32 1), .workspaceReload (.str "a")],
    ∀ i q, r ≠ .initializeBuild i q := by
  intro r hr
  simp only [List.mem_cons, List.not_mem_nil, or_false] at hr
  rcases hr with rfl | rfl <;> intro i q h <;> cases h

/-- Beside C42 and C44: what is sent is two refusals and the response; the handler is called once. -/
example : (∃ a b, Spec.IsRefusal (.shutdown (.i32 1)) a ∧ Spec.IsRefusal (.workspaceReload (.str "a")) b ∧
      (handshake (fun _ => some Value.null) sampleWorld).2.sent =
        [a, b, .response ⟨.i32 2, some Value.null, none⟩]) ∧
    (handshake (fun _ => some Value.null) sampleWorld).2.calls = [sampleInit] := by
  constructor
  · obtain ⟨rs, h1, h2⟩ := C44_response (fun _ => some Value.null) sampleWorld _ _ _ Value.null _ rfl
      sampleEarly (by decide) rfl
    rcases h2 with _ | ⟨h2, _ | ⟨h3, _ | _⟩⟩
    exact ⟨_, _, h2, h3, h1⟩
  · exact ((C44_calls _ sampleWorld).1 sampleInit).2 ⟨_, _, _, rfl, sampleEarly, by decide⟩

/-- Beside C45: a request in place of build/initialized is an error, and what follows it is left. -/
example : ∃ e, (handshake (fun _ => some Value.null)
      { sampleWorld with inp := [(3, .request (.initializeBuild (.i32 2) sampleInit)),
        (4, .request (.shutdown (.i32 3))), (5, .notification .initialized)] }).1 = .err e ∧
    (handshake (fun _ => some Value.null)
      { sampleWorld with inp := [(3, .request (.initializeBuild (.i32 2) sampleInit)),
        (4, .request (.shutdown (.i32 3))), (5, .notification .initialized)] }).2.msgs =
      [.notification .initialized] :=
  (C45_not_initialized _ _ [] (.i32 2) sampleInit (by simp) (by decide) (by simp)).1 _ _ rfl (by simp)

/-- Beside C47: the peer hangs up after an early request. -/
example : ∃ e rs, (handshake (fun _ => some Value.null)
      { sampleWorld with inp := [(3, .request (.shutdown (.i32 3)))], fin := .closedAt 7 }).1 = .err e ∧
    (handshake (fun _ => some Value.null)
      { sampleWorld with inp := [(3, .request (.shutdown (.i32 3)))], fin := .closedAt 7 }).2.sent =
      [] ++ rs ∧ Spec.Refusals [.shutdown (.i32 3)] rs :=
  (C47_hang_up _ _ [.shutdown (.i32 3)] 7 rfl (by simp)).1 rfl (by decide)

/-- Beside C48 and C49: a reload request is left alone, a shutdown request is answered. -/
example : handleShutdown (.workspaceReload (.i32 1)) sampleWorld = (.ok false, sampleWorld) ∧
    (handleShutdown (.shutdown (.i32 1)) sampleWorld).2.sent =
      [.response ⟨.i32 1, some Value.null, none⟩] :=
  ⟨C48_other _ (by simp) _, (C49_response _ _).1 (by decide)⟩

end
end Bsp
