/-
C133: the loop of the README, workers that share a connection, and a thread for each request: what one can do the other
can do as well.
-/
import Verif.Props.Endless

namespace Bsp
open Conn Session Transport Frame

section
variable [Ext] [Dbg] [FloatText] {k : Kind} {process : InitializeBuild → Option Value}

/-! ### One worker is the loop -/

omit [FloatText] [Dbg] in
/-- In the loop, not in the handshake. -/
def PastHandshake : App → Prop
  | .start | .confirming | .refusing _ | .replying _ _ => False
  | _ => True

omit [FloatText] in
theorem past_recv {a : App} (h : PastHandshake a) (m : Option Message) :
    Pool.onRecv a m = Session.onRecv process a m ∧ PastHandshake (Pool.onRecv a m) := by
  have e : Pool.onRecv a m = Session.onRecv process a m := by
    cases a <;> first | exact h.elim | rfl | skip
    all_goals
      cases m with
      | none => rfl
      | some m =>
        cases m with
        | request r => cases r <;> rfl
        | response r => rfl
        | notification n => cases n <;> rfl
  refine ⟨e, ?_⟩
  unfold Pool.onRecv
  unfold Session.onRecv
  split <;> first | trivial | exact h.elim | skip
  all_goals first | exact h | (split <;> trivial)

omit [FloatText] [Dbg] in
theorem past_sent {a : App} (h : PastHandshake a) (b : Bool) : PastHandshake (onSent a b) := by
  cases a <;> first | exact h.elim | (cases b <;> trivial)

omit [Ext] [Dbg] [FloatText] in
theorem one_of {α : Type} {a b : List α} {x y : α} (h : [y] = a ++ x :: b) : a = [] ∧ b = [] ∧ x = y := by
  cases a with
  | nil => simp at h; exact ⟨rfl, h.2, h.1.symm⟩
  | cons z a => simp at h

/-- C133: a pool of one worker does what the documented loop does after the handshake, step by step, until the program
exits. -/
theorem C133_one {io : Transport.State} {as : List Session.Act} {p : Proc}
    (h : Session.Steps k process { io := io, app := .idle } as p) (he : p.exit = none) :
    ∃ as', Pool.Steps k (Pool.start io 1) as' ⟨p.io, [p.app]⟩ ∧ as'.length = as.length := by
  suffices key : ∀ {p0 p : Proc} {as : List Session.Act}, Session.Steps k process p0 as p → PastHandshake p0.app → p.exit = none →
      PastHandshake p.app ∧ ∃ as', Pool.Steps k ⟨p0.io, [p0.app]⟩ as' ⟨p.io, [p.app]⟩ ∧ as'.length = as.length from
    (key h trivial he).2
  intro p0 p as h h0
  induction h with
  | nil => exact fun _ => ⟨h0, [], .nil _, rfl⟩
  | @snoc as q a r hq hs ih =>
    intro he
    have hqe : q.exit = none := by cases hs <;> assumption
    obtain ⟨i1, as', i2, i3⟩ := ih hqe
    have step : ∀ {act}, Pool.Step k ⟨q.io, [q.app]⟩ act ⟨r.io, [r.app]⟩ →
        ∃ as', Pool.Steps k ⟨p0.io, [p0.app]⟩ as' ⟨r.io, [r.app]⟩ ∧ as'.length = (as ++ [a]).length := by
      intro act h1
      exact ⟨as' ++ [act], .snoc i2 h1, by simp [i3]⟩
    cases hs with
    | @io a' _ io' _ h1 h2 =>
      refine ⟨i1, ?_⟩
      obtain ⟨act', h3⟩ : ∃ act', Pool.kindOf a' = some act' := by
        cases a' <;> first | exact ⟨_, rfl⟩ | cases h2
      exact step (.io (p := ⟨q.io, [q.app]⟩) h1 h3)
    | @recv m io' _ h1 h2 =>
      obtain ⟨e1, e2⟩ := past_recv (process := process) i1 (some m)
      rw [e1] at e2
      refine ⟨e2, step (act := .worker) ?_⟩
      have := Pool.Step.recv (a := []) (b := []) h1 h2
      rw [e1] at this
      exact this
    | closed _ h1 h2 =>
      obtain ⟨e1, e2⟩ := past_recv (process := process) i1 none
      rw [e1] at e2
      refine ⟨e2, step (act := .worker) ?_⟩
      have := Pool.Step.closed (k := k) (a := []) (b := []) h1 h2
      rw [e1] at this
      exact this
    | send _ h1 h2 => exact ⟨past_sent i1 _, step (.send (a := []) (b := []) h1 h2)⟩
    | unsent _ h1 h2 => exact ⟨past_sent i1 _, step (.unsent (a := []) (b := []) h1 h2)⟩
    | timeout _ h1 =>
      refine ⟨trivial, step (act := .timeout) ?_⟩
      rw [h1]
      exact .timeout (a := []) (b := [])
    | dropRx _ h1 h2 =>
      exact ⟨i1, step (.dropRx (p := ⟨q.io, [q.app]⟩) (by intro x hx; exact ⟨_, (List.mem_singleton.1 hx).trans h1⟩) h2)⟩
    | dropTx _ h1 h2 =>
      exact ⟨i1, step (.dropTx (p := ⟨q.io, [q.app]⟩) (by intro x hx; exact ⟨_, (List.mem_singleton.1 hx).trans h1⟩) h2)⟩
    | abort => cases he
    | finish => cases he

/-- C133: and the other way round. -/
theorem C133_loop {io : Transport.State} {as : List Pool.Act} {q : Pool.State} (h : Pool.Steps k (Pool.start io 1) as q) :
    ∃ as' app, q.workers = [app] ∧ Session.Steps k process { io := io, app := .idle } as' { io := q.io, app := app } ∧
      as'.length = as.length := by
  suffices key : ∀ {p0 p : Pool.State} {as : List Pool.Act}, Pool.Steps k p0 as p → ∀ {x}, p0.workers = [x] → PastHandshake x →
      ∃ as' app, p.workers = [app] ∧ PastHandshake app ∧
        Session.Steps k process { io := p0.io, app := x } as' { io := p.io, app := app } ∧ as'.length = as.length by
    obtain ⟨as', app, h1, _, h2⟩ := key h (x := .idle) rfl trivial
    exact ⟨as', app, h1, h2⟩
  intro p0 p as h
  induction h with
  | nil => intro x hx hp; exact ⟨[], x, hx, hp, .nil _, rfl⟩
  | @snoc as q a r hq hs ih =>
    intro x hx hp
    obtain ⟨as', app, i0, i1, i2, i3⟩ := ih hx hp
    have step : ∀ {act app'}, r.workers = [app'] → PastHandshake app' →
        Session.Step k process { io := q.io, app := app } act { io := r.io, app := app' } →
        ∃ as' app, r.workers = [app] ∧ PastHandshake app ∧
        Session.Steps k process { io := p0.io, app := x } as' { io := r.io, app := app } ∧ as'.length = (as ++ [a]).length := by
      intro act app' h1 h2 h3
      exact ⟨as' ++ [act], app', h1, h2, .snoc i2 h3, by simp [i3]⟩
    cases hs with
    | @io _ a' act io' h1 h2 =>
      obtain ⟨act', h3⟩ : ∃ act', Session.kindOf a' = some act' := by
        cases a' <;> first | exact ⟨_, rfl⟩ | cases h2
      exact step i0 i1 (.io (p := { io := q.io, app := app }) rfl h1 h3)
    | @recv io io' a b y m h1 h2 =>
      obtain ⟨rfl, rfl, rfl⟩ := one_of i0.symm
      obtain ⟨e1, e2⟩ := past_recv (process := process) i1 (some m)
      refine step (app' := Pool.onRecv y (some m)) rfl e2 (act := .main) ?_
      rw [e1]
      exact .recv (p := { io := io, app := y }) rfl h1 h2
    | @closed io a b y h1 h2 =>
      obtain ⟨rfl, rfl, rfl⟩ := one_of i0.symm
      obtain ⟨e1, e2⟩ := past_recv (process := process) i1 none
      refine step (app' := Pool.onRecv y none) rfl e2 (act := .main) ?_
      rw [e1]
      exact .closed (p := { io := io, app := y }) rfl h1 h2
    | @send io io' a b y m h1 h2 =>
      obtain ⟨rfl, rfl, rfl⟩ := one_of i0.symm
      exact step (app' := onSent y true) rfl (past_sent i1 _) (.send (p := { io := io, app := y }) rfl h1 h2)
    | @unsent io a b y m h1 h2 =>
      obtain ⟨rfl, rfl, rfl⟩ := one_of i0.symm
      exact step (app' := onSent y false) rfl (past_sent i1 _) (.unsent (p := { io := io, app := y }) rfl h1 h2)
    | @timeout io a b =>
      obtain ⟨rfl, rfl, rfl⟩ := one_of i0.symm
      exact step rfl (by trivial) (.timeout (p := { io := io, app := .leaving }) rfl rfl)
    | dropRx h1 h2 =>
      obtain ⟨r, h3⟩ := h1 app (by rw [i0]; simp)
      exact step i0 i1 (.dropRx (p := { io := q.io, app := app }) rfl h3 h2)
    | dropTx h1 h2 =>
      obtain ⟨r, h3⟩ := h1 app (by rw [i0]; simp)
      exact step i0 i1 (.dropTx (p := { io := q.io, app := app }) rfl h3 h2)

/-! ### More workers can do what fewer can -/

/-- C133: as long as the connection is in use, `n + 1` workers can do what `n` workers do, one of them doing nothing. -/
theorem C133_more {io : Transport.State} {n : Nat} {as : List Pool.Act} {p : Pool.State}
    (h : Pool.Steps k (Pool.start io n) as p) (hd : Pool.Act.drop ∉ as) :
    Pool.Steps k (Pool.start io (n + 1)) as ⟨p.io, p.workers ++ [.idle]⟩ := by
  generalize h0 : Pool.start io n = p0 at h
  induction h with
  | nil =>
    subst h0
    have : Pool.start io (n + 1) = ⟨(Pool.start io n).io, (Pool.start io n).workers ++ [.idle]⟩ := by
      simp [Pool.start, List.replicate_succ']
    rw [this]
    exact .nil _
  | @snoc as q a r hq hs ih =>
    simp only [List.mem_append, List.mem_singleton, not_or] at hd
    have ih := ih hd.1
    refine .snoc ih ?_
    cases hs with
    | io h1 h2 => exact .io (p := ⟨q.io, q.workers ++ [.idle]⟩) h1 h2
    | recv h1 h2 => simp only [List.append_assoc, List.cons_append]; exact .recv h1 h2
    | closed h1 h2 => simp only [List.append_assoc, List.cons_append]; exact .closed h1 h2
    | send h1 h2 => simp only [List.append_assoc, List.cons_append]; exact .send h1 h2
    | unsent h1 h2 => simp only [List.append_assoc, List.cons_append]; exact .unsent h1 h2
    | timeout => simp only [List.append_assoc, List.cons_append]; exact .timeout
    | dropRx => exact absurd rfl hd.2
    | dropTx => exact absurd rfl hd.2

/-! ### A thread for each request can do what workers can -/

omit [Dbg] [FloatText] in
/-- The request a worker is answering. -/
def askOf : App → Option Request
  | .answering r => some r
  | _ => none

omit [Dbg] [FloatText] in
/-- The request of a thread that has something left to send. -/
def jobOf (j : Crew.Job) : Option Request := if j.left = [] then none else some j.req

omit [Dbg] [FloatText] in
/-- Where a worker can be while nobody asks to shut down. -/
def AtEase : App → Prop
  | .idle | .ended _ => True
  | .answering r => ∀ id, r ≠ .shutdown id
  | _ => False

omit [Dbg] [FloatText] in
theorem asks_mid (a b : List App) (x : App) :
    ((a ++ x :: b).filterMap askOf).Perm ((askOf x).toList ++ (a ++ b).filterMap askOf) := by
  rw [List.filterMap_append, List.filterMap_cons, List.filterMap_append]
  cases askOf x with
  | none => exact .refl _
  | some r => exact List.perm_middle

omit [Dbg] [FloatText] in
theorem jobs_mid (a b : List Crew.Job) (x : Crew.Job) :
    ((a ++ x :: b).filterMap jobOf).Perm ((jobOf x).toList ++ (a ++ b).filterMap jobOf) := by
  rw [List.filterMap_append, List.filterMap_cons, List.filterMap_append]
  cases jobOf x with
  | none => exact .refl _
  | some r => exact List.perm_middle

/-- What a receiving worker that is calm becomes. -/
theorem ease_recv {x : App} {m : Message} (h : AtEase x) (hr : x.receives = true) (hm : ∀ id, m ≠ .request (.shutdown id)) :
    x = .idle ∧ ((∃ r, m = .request r ∧ (∀ id, r ≠ .shutdown id) ∧ Pool.onRecv x (some m) = .answering r) ∨
      Pool.onRecv x (some m) = .idle) := by
  obtain rfl : x = .idle := by
    cases x <;> first | rfl | exact h.elim | cases hr
  refine ⟨rfl, ?_⟩
  cases m with
  | request r =>
    have hn : ∀ id, r ≠ .shutdown id := fun id e => hm id (e ▸ rfl)
    exact .inl ⟨r, rfl, hn, hears hn⟩
  | response r => exact .inr rfl
  | notification n => exact .inr (by cases n <;> rfl)

theorem steps_delivered {p q : Pool.State} {as : List Pool.Act} (h : Pool.Steps k p as q) :
    p.io.delivered <+: q.io.delivered := by
  induction h with
  | nil => exact List.prefix_refl _
  | snoc _ hs ih =>
    refine ih.trans ?_
    cases hs with
    | io h1 => exact (io_grows h1).1
    | recv _ h1 => exact (io_grows h1).1
    | send _ h1 => exact (io_grows h1).1
    | _ => exact List.prefix_refl _

/-- C133: as long as the connection is in use and nobody asks to shut down, whatever workers do to the connection can be
done by a program that starts a thread for each request. -/
theorem C133_threads {io : Transport.State} {n : Nat} {as : List Pool.Act} {p : Pool.State}
    (h : Pool.Steps k (Pool.start io n) as p) (hd : Pool.Act.drop ∉ as)
    (hs : Spec.NoShutdown (p.io.delivered.drop io.delivered.length)) :
    ∃ as' c, Crew.Steps k (fun r ms => ms = [reply r]) { io := io } as' c ∧ c.io = p.io ∧ as'.Sublist as := by
  suffices key : (∀ x ∈ p.workers, AtEase x) ∧ ∃ as' jobs, Crew.Steps k (fun r ms => ms = [reply r]) { io := io } as' { io := p.io, jobs := jobs } ∧
      as'.Sublist as ∧
      (∀ j ∈ jobs, j.left = [] ∨ j.left = [reply j.req]) ∧ (p.workers.filterMap askOf).Perm (jobs.filterMap jobOf) by
    obtain ⟨_, as', jobs, h1, h2, _⟩ := key
    exact ⟨as', _, h1, rfl, h2⟩
  generalize h0 : Pool.start io n = p0 at h
  induction h with
  | nil =>
    subst h0
    refine ⟨?_, [], [], .nil _, .refl _, by simp, ?_⟩
    · intro x hx; rw [List.eq_of_mem_replicate hx]; trivial
    · have : (Pool.start io n).workers.filterMap askOf = [] := by
        rw [List.filterMap_eq_nil_iff]
        intro x hx; rw [List.eq_of_mem_replicate hx]; rfl
      rw [this]
      exact .refl _
  | @snoc as q a r hq hst ih =>
    subst h0
    simp only [List.mem_append, List.mem_singleton, not_or] at hd
    have h0d : io.delivered <+: q.io.delivered := steps_delivered hq
    have hqr : q.io.delivered <+: r.io.delivered := steps_delivered (.snoc (.nil _) hst)
    obtain ⟨t, ht⟩ := h0d
    obtain ⟨u, hu⟩ := hqr
    have hs1 : Spec.NoShutdown (t ++ u) := by
      rw [← hu, ← ht, List.append_assoc, List.drop_left' rfl] at hs
      exact hs
    obtain ⟨ic, as', jobs, i1, is, i2, i3⟩ := ih hd.1 (by
      rw [← ht, List.drop_left' rfl]
      exact fun id hm => hs1 id (List.mem_append_left _ hm))
    have sub : ∀ x, (as' ++ [x]).Sublist (as ++ [x]) := fun x => is.append (.refl _)
    have stay : ∀ x, as'.Sublist (as ++ [x]) := fun x => is.trans (List.sublist_append_left _ _)
    cases hst with
    | io h1 h2 => exact ⟨ic, _, jobs, .snoc i1 (.io h1 h2), sub _, i2, i3⟩
    | @recv io0 io' a b x m h1 h2 =>
      have hm : ∀ id, m ≠ .request (.shutdown id) := by
        rintro id rfl
        refine hs1 id (List.mem_append_right _ ?_)
        cases h2
        rw [List.append_cancel_left hu]
        simp
      obtain ⟨rfl, ⟨rq, rfl, hn, e⟩ | e⟩ := ease_recv (ic x (by simp)) h1 hm
      · rw [e]
        refine ⟨?_, _, jobs ++ [{ req := rq, left := [reply rq] }],
          .snoc i1 (.hire (p := { io := io0, jobs := jobs }) rfl h2 e rfl), sub _, ?_, ?_⟩
        · intro y hy
          rcases List.mem_append.1 hy with hy | hy
          · exact ic y (List.mem_append_left _ hy)
          · rcases List.mem_cons.1 hy with rfl | hy
            · exact hn
            · exact ic y (List.mem_append_right _ (List.mem_cons_of_mem _ hy))
        · intro j hj
          rcases List.mem_append.1 hj with hj | hj
          · exact i2 j hj
          · rw [List.mem_singleton.1 hj]; exact .inr rfl
        · refine (asks_mid a b (.answering rq)).trans ?_
          have e2 : (jobs ++ [({ req := rq, left := [reply rq] } : Crew.Job)]).filterMap jobOf = jobs.filterMap jobOf ++ [rq] := by
            rw [List.filterMap_append]; rfl
          rw [e2]
          have i4 := (asks_mid a b .idle).symm.trans i3
          exact (List.Perm.cons rq i4).trans (List.perm_append_singleton _ _).symm
      · rw [e]
        have h4 : Crew.onRecv .idle (some m) = .idle := e
        have h5 : Crew.Step k (fun r ms => ms = [reply r]) { io := io0, jobs := jobs } .worker { io := io', jobs := jobs } := by
          have := Crew.Step.recv (work := fun r ms => ms = [reply r]) (p := { io := io0, jobs := jobs }) rfl h2
            (by intro r h3; rw [h4] at h3; cases h3)
          rw [h4] at this
          exact this
        exact ⟨ic, _, jobs, .snoc i1 h5, sub _, i2, i3⟩
    | @closed io0 a b x h1 h2 =>
      have hc := ic x (by simp)
      obtain rfl : x = .idle := by
        cases x <;> first | rfl | exact hc.elim | cases h1
      refine ⟨?_, as', jobs, i1, stay _, i2, ?_⟩
      · intro y hy
        rcases List.mem_append.1 hy with hy | hy
        · exact ic y (List.mem_append_left _ hy)
        · rcases List.mem_cons.1 hy with rfl | hy
          · trivial
          · exact ic y (List.mem_append_right _ (List.mem_cons_of_mem _ hy))
      · exact (asks_mid a b _).trans ((asks_mid a b .idle).symm.trans i3)
    | @send io0 io' a b x m h1 h2 =>
      have hc := ic x (by simp)
      obtain ⟨rq, rfl⟩ : ∃ rq, x = .answering rq := by
        cases x <;> first | exact ⟨_, rfl⟩ | exact hc.elim | cases h1
      cases h1
      have i4 := (asks_mid a b (.answering rq)).symm.trans i3
      obtain ⟨j, hj, e⟩ := List.mem_filterMap.1 (i4.mem_iff.1 (List.mem_cons_self ..))
      obtain ⟨ja, jb, rfl⟩ := List.append_of_mem hj
      have hne : j.left ≠ [] := by intro e'; simp [jobOf, e'] at e
      have el : j.left = [reply rq] := by
        simp only [jobOf, if_neg hne, Option.some.injEq] at e
        rcases i2 j hj with h | h
        · exact absurd h hne
        · rw [h, e]
      obtain ⟨jr, js, jl, jz⟩ := j
      simp only at el
      subst el
      have e1 : jr = rq := by simpa [jobOf] using e
      subst e1
      refine ⟨?_, _, ja ++ ⟨jr, js ++ [reply jr], [], jz⟩ :: jb, .snoc i1 (.send h2), sub _, ?_, ?_⟩
      · intro y hy
        rcases List.mem_append.1 hy with hy | hy
        · exact ic y (List.mem_append_left _ hy)
        · rcases List.mem_cons.1 hy with rfl | hy
          · trivial
          · exact ic y (List.mem_append_right _ (List.mem_cons_of_mem _ hy))
      · intro y hy
        rcases List.mem_append.1 hy with hy | hy
        · exact i2 y (List.mem_append_left _ hy)
        · rcases List.mem_cons.1 hy with rfl | hy
          · exact .inl rfl
          · exact i2 y (List.mem_append_right _ (List.mem_cons_of_mem _ hy))
      · refine (asks_mid a b .idle).trans (List.Perm.trans ?_ (jobs_mid ja jb ⟨jr, js ++ [reply jr], [], jz⟩).symm)
        have := i4.trans (jobs_mid ja jb ⟨jr, js, [reply jr], jz⟩)
        exact List.Perm.cons_inv this
    | @unsent io0 a b x m h1 h2 =>
      have hc := ic x (by simp)
      obtain ⟨rq, rfl⟩ : ∃ rq, x = .answering rq := by
        cases x <;> first | exact ⟨_, rfl⟩ | exact hc.elim | cases h1
      have i4 := (asks_mid a b (.answering rq)).symm.trans i3
      obtain ⟨j, hj, e⟩ := List.mem_filterMap.1 (i4.mem_iff.1 (List.mem_cons_self ..))
      obtain ⟨ja, jb, rfl⟩ := List.append_of_mem hj
      have hne : j.left ≠ [] := by intro e'; simp [jobOf, e'] at e
      have el : j.left = [reply rq] := by
        simp only [jobOf, if_neg hne, Option.some.injEq] at e
        rcases i2 j hj with h | h
        · exact absurd h hne
        · rw [h, e]
      obtain ⟨jr, js, jl, jz⟩ := j
      simp only at el
      subst el
      have e1 : jr = rq := by simpa [jobOf] using e
      subst e1
      refine ⟨?_, _, ja ++ ⟨jr, js, [], [reply jr]⟩ :: jb, .snoc i1 (.unsent h2), sub _, ?_, ?_⟩
      · intro y hy
        rcases List.mem_append.1 hy with hy | hy
        · exact ic y (List.mem_append_left _ hy)
        · rcases List.mem_cons.1 hy with rfl | hy
          · trivial
          · exact ic y (List.mem_append_right _ (List.mem_cons_of_mem _ hy))
      · intro y hy
        rcases List.mem_append.1 hy with hy | hy
        · exact i2 y (List.mem_append_left _ hy)
        · rcases List.mem_cons.1 hy with rfl | hy
          · exact .inl rfl
          · exact i2 y (List.mem_append_right _ (List.mem_cons_of_mem _ hy))
      · refine (asks_mid a b _).trans (List.Perm.trans ?_ (jobs_mid ja jb ⟨jr, js, [], [reply jr]⟩).symm)
        have := i4.trans (jobs_mid ja jb ⟨jr, js, [reply jr], jz⟩)
        exact List.Perm.cons_inv this
    | @timeout io0 a b => exact (ic .leaving (by simp)).elim
    | dropRx => exact absurd rfl hd.2
    | dropTx => exact absurd rfl hd.2

/-! ### Enough workers can do what a thread for each request can -/

theorem crew_delivered {work : Request → List Message → Prop} {p q : Crew.State} {as : List Pool.Act}
    (h : Crew.Steps k work p as q) : p.io.delivered <+: q.io.delivered := by
  induction h with
  | nil => exact List.prefix_refl _
  | snoc _ hs ih =>
    refine ih.trans ?_
    cases hs with
    | io h1 => exact (io_grows h1).1
    | recv _ h1 => exact (io_grows h1).1
    | hire _ h1 => exact (io_grows h1).1
    | reply _ h1 => exact (io_grows h1).1
    | send h1 => exact (io_grows h1).1
    | _ => exact List.prefix_refl _

omit [FloatText] in
/-- How many workers wait to receive. -/
def idlers (l : List App) : Nat := l.countP App.receives

/-- C133: and the other way round: what a program that starts a thread for each request does to the connection can be
done by workers, if there is one for each request and one more. -/
theorem C133_enough {io : Transport.State} {n : Nat} {as : List Pool.Act} {c : Crew.State}
    (h : Crew.Steps k (fun r ms => ms = [reply r]) { io := io } as c) (hd : Pool.Act.drop ∉ as)
    (hs : Spec.NoShutdown (c.io.delivered.drop io.delivered.length))
    (hn : (Spec.requests (c.io.delivered.drop io.delivered.length)).length ≤ n) :
    ∃ as' p, Pool.Steps k (Pool.start io (n + 1)) as' p ∧ p.io = c.io ∧ as'.Sublist as := by
  suffices key : AtEase c.main ∧ (∀ j ∈ c.jobs, j.left = [] ∨ j.left = [reply j.req]) ∧ ∃ as' l, Pool.Steps k (Pool.start io (n + 1)) as' ⟨c.io, l⟩ ∧
      as'.Sublist as ∧
      (∀ r, c.main ≠ .answering r) ∧ (∀ x ∈ l, AtEase x) ∧
      n + 1 ≤ idlers l + (Spec.requests (c.io.delivered.drop io.delivered.length)).length ∧
      (l.filterMap askOf).Perm (c.jobs.filterMap jobOf) by
    obtain ⟨_, _, as', l, h1, h2, _⟩ := key
    exact ⟨as', _, h1, rfl, h2⟩
  generalize h0 : ({ io := io } : Crew.State) = p0 at h
  induction h with
  | nil =>
    subst h0
    refine ⟨trivial, by simp, [], List.replicate (n + 1) .idle, .nil _, .refl _, by simp, ?_, ?_, ?_⟩
    · intro x hx; rw [List.eq_of_mem_replicate hx]; trivial
    · simp [idlers, List.countP_replicate, App.receives]
    · have : (List.replicate (n + 1) App.idle).filterMap askOf = [] := by
        rw [List.filterMap_eq_nil_iff]
        intro x hx; rw [List.eq_of_mem_replicate hx]; rfl
      rw [this]
      exact .refl _
  | @snoc as q a r hq hst ih =>
    subst h0
    simp only [List.mem_append, List.mem_singleton, not_or] at hd
    obtain ⟨t, ht⟩ : io.delivered <+: q.io.delivered := crew_delivered hq
    obtain ⟨u, hu⟩ : q.io.delivered <+: r.io.delivered := crew_delivered (.snoc (.nil _) hst)
    have ed : r.io.delivered.drop io.delivered.length = t ++ u := by
      rw [← hu, ← ht, List.append_assoc, List.drop_left' rfl]
    have eq : q.io.delivered.drop io.delivered.length = t := by rw [← ht, List.drop_left' rfl]
    rw [ed] at hs hn ⊢
    rw [reqs_append, List.length_append] at hn ⊢
    obtain ⟨ic, ij, as', l, i1, is, im, il, i2, i3⟩ := ih hd.1 (by
      rw [eq]; exact fun id hm => hs id (List.mem_append_left _ hm)) (by rw [eq]; omega)
    rw [eq] at i2
    have sub : ∀ x, (as' ++ [x]).Sublist (as ++ [x]) := fun x => is.append (.refl _)
    have stay : ∀ x, as'.Sublist (as ++ [x]) := fun x => is.trans (List.sublist_append_left _ _)
    -- there is a worker that waits
    have ⟨la, lb, el⟩ : ∃ la lb, l = la ++ .idle :: lb := by
      have : 0 < idlers l ∨ n < (Spec.requests t).length := by omega
      rcases this with h1 | h1
      · obtain ⟨x, hx, h2⟩ := List.countP_pos_iff.1 h1
        have hc := il x hx
        obtain rfl : x = .idle := by
          cases x <;> first | rfl | exact hc.elim | cases h2
        exact List.append_of_mem hx
      · omega
    have mono : idlers l + (Spec.requests t).length ≤ idlers l + ((Spec.requests t).length + (Spec.requests u).length) := by omega
    cases hst with
    | io h1 h2 => exact ⟨ic, ij, _, l, .snoc i1 (.io h1 h2), sub _, im, il, by omega, i3⟩
    | @recv _ m io' h1 h2 h3 =>
      have hu' : u = [m] := by
        cases h2
        exact List.append_cancel_left hu
      have hm : ∀ id, m ≠ .request (.shutdown id) := by
        rintro id rfl
        exact hs id (List.mem_append_right _ (by rw [hu']; simp))
      obtain ⟨e0, ⟨rq, rfl, hn', e⟩ | e⟩ := ease_recv ic h1 hm
      · exact absurd e (h3 rq)
      · have e' : Crew.onRecv q.main (some m) = .idle := e
        rw [e0] at e
        refine ⟨by rw [e']; trivial, ij, as' ++ [.worker], l, .snoc i1 ?_, sub _, by rw [e']; simp, il, by omega, i3⟩
        rw [el]
        have := Pool.Step.recv (k := k) (a := la) (b := lb) (x := .idle) rfl h2
        rw [e] at this
        exact this
    | @hire _ m io' rq ms h1 h2 h3 h4 =>
      have hu' : u = [m] := by
        cases h2
        exact List.append_cancel_left hu
      have hm : ∀ id, m ≠ .request (.shutdown id) := by
        rintro id rfl
        exact hs id (List.mem_append_right _ (by rw [hu']; simp))
      subst h4
      obtain ⟨e0, ⟨rq', rfl, hn', e⟩ | e⟩ := ease_recv ic h1 hm
      · have e1 : rq' = rq := by
          have h3 : Pool.onRecv q.main (some (.request rq')) = .answering rq := h3
          rw [e] at h3; cases h3; rfl
        subst e1
        rw [e0] at e
        subst el
        refine ⟨ic, ?_, as' ++ [.worker], la ++ .answering rq' :: lb, .snoc i1 ?_, sub _, im, ?_, ?_, ?_⟩
        · intro j hj
          rcases List.mem_append.1 hj with hj | hj
          · exact ij j hj
          · rw [List.mem_singleton.1 hj]; exact .inr rfl
        · have := Pool.Step.recv (k := k) (a := la) (b := lb) (x := .idle) rfl h2
          rw [e] at this
          exact this
        · intro y hy
          rcases List.mem_append.1 hy with hy | hy
          · exact il y (List.mem_append_left _ hy)
          · rcases List.mem_cons.1 hy with rfl | hy
            · exact hn'
            · exact il y (List.mem_append_right _ (List.mem_cons_of_mem _ hy))
        · rw [hu']
          simp only [idlers, List.countP_append, List.countP_cons, App.receives, if_true, Spec.requests, List.length_cons, List.length_nil] at i2 ⊢
          simp only [Bool.false_eq_true, if_false]
          omega
        · refine (asks_mid la lb (.answering rq')).trans ?_
          have e2 : (q.jobs ++ [({ req := rq', left := [reply rq'] } : Crew.Job)]).filterMap jobOf = q.jobs.filterMap jobOf ++ [rq'] := by
            rw [List.filterMap_append]; rfl
          rw [e2]
          have i4 := (asks_mid la lb .idle).symm.trans i3
          exact (List.Perm.cons rq' i4).trans (List.perm_append_singleton _ _).symm
      · have h3 : Pool.onRecv q.main (some m) = .answering rq := h3
        rw [e] at h3; cases h3
    | closed h1 h2 =>
      have e0 : q.main = .idle := by
        generalize hqm : q.main = x at ic h1
        cases x <;> first | rfl | exact ic.elim | cases h1
      have e1 : Crew.onRecv q.main none = .ended (.ok ()) := by rw [e0]; rfl
      exact ⟨by rw [e1]; trivial, ij, as', l, i1, stay _, by rw [e1]; simp, il, by omega, i3⟩
    | reply h1 =>
      exfalso
      generalize hqm : q.main = x at ic h1 im
      cases x <;> first | exact ic.elim | exact im _ rfl | cases h1
    | noReply h1 =>
      exfalso
      generalize hqm : q.main = x at ic h1 im
      cases x <;> first | exact ic.elim | exact im _ rfl | cases h1
    | @send io0 io' main mine ja jb jr js m jl jz h2 =>
      have el' := ij _ (List.mem_append_right _ (List.mem_cons_self ..))
      have e1 : m = reply jr ∧ jl = [] := by simpa using el'
      obtain ⟨rfl, rfl⟩ := e1
      have i4 := i3.trans (jobs_mid ja jb ⟨jr, js, [reply jr], jz⟩)
      obtain ⟨x, hx, e⟩ := List.mem_filterMap.1 (i4.symm.mem_iff.1 (List.mem_cons_self ..))
      obtain rfl : x = .answering jr := by
        cases x <;> simp [askOf] at e
        exact e ▸ rfl
      obtain ⟨a, b, rfl⟩ := List.append_of_mem hx
      refine ⟨ic, ?_, _, a ++ .idle :: b, .snoc i1 (.send (x := .answering jr) rfl h2), sub _, im, ?_, ?_, ?_⟩
      · intro y hy
        rcases List.mem_append.1 hy with hy | hy
        · exact ij y (List.mem_append_left _ hy)
        · rcases List.mem_cons.1 hy with rfl | hy
          · exact .inl rfl
          · exact ij y (List.mem_append_right _ (List.mem_cons_of_mem _ hy))
      · intro y hy
        rcases List.mem_append.1 hy with hy | hy
        · exact il y (List.mem_append_left _ hy)
        · rcases List.mem_cons.1 hy with rfl | hy
          · trivial
          · exact il y (List.mem_append_right _ (List.mem_cons_of_mem _ hy))
      · simp only [idlers, List.countP_append, List.countP_cons, App.receives, if_true] at i2 ⊢
        simp only [Bool.false_eq_true, if_false] at i2
        omega
      · refine (asks_mid a b .idle).trans (List.Perm.trans ?_ (jobs_mid ja jb ⟨jr, js ++ [reply jr], [], jz⟩).symm)
        exact List.Perm.cons_inv ((asks_mid a b (.answering jr)).symm.trans i4)
    | @unsent io0 main mine ja jb jr js m jl jz h2 =>
      have el' := ij _ (List.mem_append_right _ (List.mem_cons_self ..))
      have e1 : m = reply jr ∧ jl = [] := by simpa using el'
      obtain ⟨rfl, rfl⟩ := e1
      have i4 := i3.trans (jobs_mid ja jb ⟨jr, js, [reply jr], jz⟩)
      obtain ⟨x, hx, e⟩ := List.mem_filterMap.1 (i4.symm.mem_iff.1 (List.mem_cons_self ..))
      obtain rfl : x = .answering jr := by
        cases x <;> simp [askOf] at e
        exact e ▸ rfl
      obtain ⟨a, b, rfl⟩ := List.append_of_mem hx
      refine ⟨ic, ?_, _, a ++ onSent (.answering jr) false :: b, .snoc i1 (.unsent (x := .answering jr) (m := reply jr) rfl h2), sub _, im, ?_, ?_, ?_⟩
      · intro y hy
        rcases List.mem_append.1 hy with hy | hy
        · exact ij y (List.mem_append_left _ hy)
        · rcases List.mem_cons.1 hy with rfl | hy
          · exact .inl rfl
          · exact ij y (List.mem_append_right _ (List.mem_cons_of_mem _ hy))
      · intro y hy
        rcases List.mem_append.1 hy with hy | hy
        · exact il y (List.mem_append_left _ hy)
        · rcases List.mem_cons.1 hy with rfl | hy
          · trivial
          · exact il y (List.mem_append_right _ (List.mem_cons_of_mem _ hy))
      · simp only [idlers, onSent, List.countP_append, List.countP_cons, App.receives, Bool.false_eq_true, if_false] at i2 ⊢
        omega
      · refine (asks_mid a b _).trans (List.Perm.trans ?_ (jobs_mid ja jb ⟨jr, js, [], [reply jr]⟩).symm)
        exact List.Perm.cons_inv ((asks_mid a b (.answering jr)).symm.trans i4)
    | timeout h1 => rw [h1] at ic; exact ic.elim
    | dropRx => exact absurd rfl hd.2
    | dropTx => exact absurd rfl hd.2

/-- A worker that is not about to receive, nor to answer shutdown. -/
def busy : App → Bool
  | .stopping _ => false
  | x => !x.receives

omit [FloatText] in
/-- Whoever receives a request other than shutdown is at work. -/
theorem request_works {x : App} (hx : x.receives = true) {r : Request} (hr : isShutdown r = false) :
    busy (Pool.onRecv x (some (.request r))) = true := by
  cases x <;> simp only [App.receives, Bool.false_eq_true] at hx <;> cases r <;>
    first | rfl | (cases hr)

omit [FloatText] [Dbg] in
theorem receives_free {x : App} (hx : x.receives = true) : busy x = false := by
  cases x <;> first | rfl | cases hx

theorem pool_room {io : Transport.State} {n : Nat} {as : List Pool.Act} {p : Pool.State}
    (h : Pool.Steps k (Pool.start io n) as p) :
    ∃ got sent, p.io.delivered = io.delivered ++ got ∧ p.io.accepted = io.accepted ++ sent ∧
      p.workers.length = n ∧ (Spec.requests got).countP (fun r => !isShutdown r) ≤ sent.length + p.workers.countP busy ∧
      ∀ before m, got = before ++ [m] → (Spec.requests before).countP (fun r => !isShutdown r) < sent.length + n := by
  generalize hp : Pool.start io n = p0 at h
  induction h with
  | nil =>
    subst hp
    exact ⟨[], [], by simp [Pool.start], by simp [Pool.start], by simp [Pool.start], by simp [Spec.requests], by simp⟩
  | @snoc as q a r hq hst ih =>
    subst hp
    obtain ⟨got, sent, i1, i2, i3, i4, i5⟩ := ih
    cases hst with
    | io h1 h2 =>
      refine ⟨got, sent, ?_, ?_, i3, i4, i5⟩
      · cases h1 with
        | read r => cases r <;> exact i1
        | _ => first | exact i1 | cases h2
      · cases h1 with
        | read r => cases r <;> exact i2
        | _ => first | exact i2 | cases h2
    | @recv io0 io' la lb x m h1 h2 =>
      cases h2
      dsimp only at i1 i2 i3 i4 ⊢
      refine ⟨got ++ [m], sent, by rw [i1, List.append_assoc], i2, by simpa using i3, ?_, ?_⟩
      · rw [reqs_append, List.countP_append]
        simp only [List.countP_append, List.countP_cons, receives_free h1, Bool.false_eq_true, if_false] at i4 ⊢
        cases m with
        | request r =>
          cases hr : isShutdown r with
          | false =>
            simp only [request_works h1 hr, hr, if_true, Spec.requests, List.countP_cons, List.countP_nil, Bool.not_false]
            omega
          | true =>
            simp only [hr, Spec.requests, List.countP_cons, List.countP_nil, Bool.not_true, Bool.false_eq_true, if_false]
            omega
        | _ =>
          simp only [Spec.requests, List.countP_nil]
          omega
      · intro before m' e
        obtain ⟨rfl, _⟩ := List.append_inj' e rfl
        have : (la ++ x :: lb).countP busy < n := by
          rw [← i3]
          have := List.countP_le_length (p := busy) (l := la)
          have := List.countP_le_length (p := busy) (l := lb)
          simp only [List.countP_append, List.countP_cons, receives_free h1, List.length_append, List.length_cons,
            Bool.false_eq_true, if_false]
          omega
        omega
    | @closed io0 la lb x h1 h2 =>
      refine ⟨got, sent, i1, i2, by simpa using i3, ?_, i5⟩
      simp only [List.countP_append, List.countP_cons, receives_free h1, Bool.false_eq_true, if_false] at i4 ⊢
      omega
    | @send io0 io' la lb x m h1 h2 =>
      cases h2
      dsimp only at i1 i2 i3 i4 ⊢
      refine ⟨got, sent ++ [m], i1, by rw [i2, List.append_assoc], by simpa using i3, ?_, ?_⟩
      · simp only [List.countP_append, List.countP_cons, List.length_append, List.length_cons, List.length_nil] at i4 ⊢
        split at i4 <;> omega
      · intro before m' e
        have := i5 before m' e
        simp only [List.length_append, List.length_cons, List.length_nil]
        omega
    | @unsent io0 la lb x m h1 h2 =>
      refine ⟨got, sent, i1, i2, by simpa using i3, ?_, i5⟩
      have : busy x = true → busy (onSent x false) = true := by
        cases x <;> simp [toSend] at h1 <;> intro h <;> first | rfl | cases h
      simp only [List.countP_append, List.countP_cons] at i4 ⊢
      cases hb : busy x with
      | false =>
        simp only [hb, Bool.false_eq_true, if_false] at i4
        omega
      | true =>
        simp only [hb, this hb, if_true] at i4 ⊢
        omega
    | @timeout io0 la lb =>
      refine ⟨got, sent, i1, i2, by simpa using i3, ?_, i5⟩
      simp only [List.countP_append, List.countP_cons, busy, App.receives, Bool.not_false, Bool.not_true, if_true,
        Bool.false_eq_true, if_false] at i4 ⊢
      omega
    | dropRx => exact ⟨got, sent, i1, i2, i3, i4, i5⟩
    | dropTx => exact ⟨got, sent, i1, i2, i3, i4, i5⟩

/-- C133: as long as nobody asks to shut down, a worker receives a message only when fewer requests are unanswered than there
are workers. -/
theorem C133_room {io : Transport.State} {n : Nat} {as : List Pool.Act} {p : Pool.State}
    (h : Pool.Steps k (Pool.start io n) as p) (hs : Spec.NoShutdown (p.io.delivered.drop io.delivered.length))
    {before : List Message} {m : Message} (hm : p.io.delivered.drop io.delivered.length = before ++ [m]) :
    (Spec.requests before).length < (p.io.accepted.drop io.accepted.length).length + n := by
  obtain ⟨got, sent, h1, h2, _, _, h3⟩ := pool_room h
  rw [h1, List.drop_left' rfl] at hs hm
  rw [h2, List.drop_left' rfl]
  have := h3 before m hm
  have e : (Spec.requests before).countP (fun r => !isShutdown r) = (Spec.requests before).length := by
    rw [List.countP_eq_length]
    intro r hr
    have : ∀ l : List Message, r ∈ Spec.requests l → Message.request r ∈ l := by
      intro l hl
      induction l with
      | nil => cases hl
      | cons x t ih =>
        cases x with
        | request r' =>
          rcases List.mem_cons.1 hl with rfl | hl
          · exact List.mem_cons_self ..
          · exact List.mem_cons_of_mem _ (ih hl)
        | _ => exact List.mem_cons_of_mem _ (ih hl)
    have := this _ hr
    cases r <;> first | rfl | exact absurd (hm ▸ List.mem_append_left _ this) (hs _)
  omega

/-- The main thread of a program that starts threads gets one message more, on a connection on which nothing is going on. -/
theorem crew_gets {io : Transport.State} {f : Bytes} {m : Message} (hio : Spec.Resting io) (hc : Spec.Carries f [m])
    (hx : m ≠ .notification .exit) {jobs : List Crew.Job} {work : Request → List Message → Prop}
    (hm : (∃ r, m = .request r ∧ (∀ id, r ≠ .shutdown id) ∧ work r [reply r]) ∨ ∃ x, m = .notification x) :
    ∃ jobs', Crew.Steps k work { io := io, jobs := jobs } [.peer, .thread, .worker]
      { io := { io with arrived := io.arrived ++ f, delivered := io.delivered ++ [m] }, jobs := jobs' } := by
  obtain ⟨hr, hu, hi, hrx, hw, htx⟩ := hio
  obtain ⟨b0, f0, e0, c0, r0⟩ := carries_last (k := k) (ms := []) hc
  have : b0 = [] := by
    generalize h0 : ([] : List Message) = l at c0
    cases c0 with
    | nil => rfl
    | snoc => simp at h0
  subst this
  rw [List.nil_append] at e0
  subst e0
  have s1 : Crew.Step k work { io := io, jobs := jobs } .peer
      { io := { io with arrived := io.arrived ++ f, unread := f }, jobs := jobs } := by
    have := Crew.Step.io (k := k) (work := work) (p := { io := io, jobs := jobs }) (act := .peer) (.arrive io f hi) rfl
    rw [hu, List.nil_append] at this
    exact this
  have s2 : Crew.Step k work { io := { io with arrived := io.arrived ++ f, unread := f }, jobs := jobs } .thread
      { io := { io with arrived := io.arrived ++ f, reader := .sending m }, jobs := jobs } := by
    have := Crew.Step.io (k := k) (work := work) (act := .thread)
      (p := { io := { io with arrived := io.arrived ++ f, unread := f }, jobs := jobs })
      (r0 { io with arrived := io.arrived ++ f, unread := f } hr [] (by simp)) rfl
    simpa [hu] using this
  have ha : afterSend m = io.reader := by
    rw [hr]
    cases m with
    | notification x =>
      cases x <;> first | rfl | exact absurd rfl hx
    | _ => rfl
  have d : Transport.Step k { io with arrived := io.arrived ++ f, reader := .sending m } (.deliver m)
      { io with arrived := io.arrived ++ f, delivered := io.delivered ++ [m] } := by
    have := Transport.Step.deliver (k := k) { io with arrived := io.arrived ++ f, reader := .sending m } m rfl hrx
    rw [ha] at this
    exact this
  rcases hm with ⟨r, rfl, hn, hwk⟩ | ⟨x, rfl⟩
  · refine ⟨jobs ++ [{ req := r, left := [reply r] }], ?_⟩
    exact .snoc (as := [.peer, .thread]) (.snoc (as := [.peer]) (.snoc (as := []) (.nil _) s1) s2)
      (.hire (p := { io := { io with arrived := io.arrived ++ f, reader := .sending (.request r) }, jobs := jobs }) rfl d
        (hears hn) hwk)
  · refine ⟨jobs, ?_⟩
    exact .snoc (as := [.peer, .thread]) (.snoc (as := [.peer]) (.snoc (as := []) (.nil _) s1) s2)
      (.recv (p := { io := { io with arrived := io.arrived ++ f, reader := .sending (.notification x) }, jobs := jobs }) rfl d
        (by simp [Crew.onRecv, Session.onRecv]))

theorem crew_steps_append {work : Request → List Message → Prop} {p q r : Crew.State} {as bs : List Pool.Act}
    (h1 : Crew.Steps k work p as q) (h2 : Crew.Steps k work q bs r) : Crew.Steps k work p (as ++ bs) r := by
  induction h2 with
  | nil => simpa using h1
  | snoc _ hs ih => rw [← List.append_assoc]; exact .snoc ih hs

omit [Dbg] [FloatText] in
theorem requests_of (rq : Nat → Request) (l : List Nat) :
    Spec.requests (l.map fun j => Message.request (rq j)) = l.map rq := by
  induction l with
  | nil => rfl
  | cons x t ih => rw [List.map_cons, List.map_cons, Spec.requests, ih]

/-- C133: one more than one for each request is needed: a program that starts a thread for each request can receive `n`
requests and another message before it has sent anything; `n` workers cannot. -/
theorem C133_needed {io : Transport.State} (hio : Spec.Resting io) {f : Nat → Bytes} {rq : Nat → Request}
    (hc : ∀ j, Spec.Carries (f j) [.request (rq j)]) (hn : ∀ j id, rq j ≠ .shutdown id) {g : Bytes} {x : Notification}
    (hg : Spec.Carries g [.notification x]) (hx : x ≠ .exit) (n : Nat) :
    ∃ as c, Crew.Steps k (fun r ms => ms = [reply r]) { io := io } as c ∧ Pool.Act.drop ∉ as ∧
      c.io.delivered = io.delivered ++ (((List.range n).map fun j => .request (rq j)) ++ [.notification x]) ∧
      c.io.accepted = io.accepted ∧ ∀ as' p, Pool.Steps k (Pool.start io n) as' p → p.io ≠ c.io := by
  have many : ∀ n, ∃ as arr jobs, Crew.Steps k (fun r ms => ms = [reply r]) { io := io } as
      { io := { io with arrived := arr, delivered := io.delivered ++ (List.range n).map fun j => .request (rq j) }, jobs := jobs } ∧
      Pool.Act.drop ∉ as := by
    intro n
    induction n with
    | zero => exact ⟨[], io.arrived, [], by simpa using Crew.Steps.nil _, by simp⟩
    | succ n ih =>
      obtain ⟨as, arr, jobs, h1, h2⟩ := ih
      obtain ⟨jobs', h3⟩ := crew_gets (k := k) (work := fun r ms => ms = [reply r]) (jobs := jobs)
        (io := { io with arrived := arr, delivered := io.delivered ++ (List.range n).map fun j => .request (rq j) })
        ⟨hio.1, hio.2, hio.3, hio.4, hio.5, hio.6⟩ (hc n) (by simp) (.inl ⟨_, rfl, hn n, rfl⟩)
      refine ⟨as ++ [.peer, .thread, .worker], arr ++ f n, jobs', ?_, ?_⟩
      · have := crew_steps_append h1 h3
        simpa [List.range_succ] using this
      · simpa using h2
  obtain ⟨as, arr, jobs, h1, h2⟩ := many n
  obtain ⟨jobs', h3⟩ := crew_gets (k := k) (work := fun r ms => ms = [reply r]) (jobs := jobs)
    (io := { io with arrived := arr, delivered := io.delivered ++ (List.range n).map fun j => .request (rq j) })
    ⟨hio.1, hio.2, hio.3, hio.4, hio.5, hio.6⟩ hg (by simpa using hx) (.inr ⟨_, rfl⟩)
  refine ⟨_, _, crew_steps_append h1 h3, by simpa using h2, by simp, rfl, ?_⟩
  intro as' p hp e
  have e1 : p.io.delivered.drop io.delivered.length = ((List.range n).map fun j => .request (rq j)) ++ [.notification x] := by
    rw [e]; dsimp only; rw [List.append_assoc, List.drop_left' rfl]
  have := C133_room hp (by
    rw [e1]
    intro id hm
    simp only [List.mem_append, List.mem_map, List.mem_singleton, reduceCtorEq, or_false] at hm
    obtain ⟨j, _, h⟩ := hm
    exact hn j id (Message.request.inj h)) e1
  rw [requests_of, e] at this
  simp at this

end

/-! ### Concrete cases -/

section
attribute [local instance] Ext.sample FloatText.sample Dbg.sample

/-- Beside C133: one request comes in, is received and answered, by each of the programs. -/
example (k : Kind) : ∃ io' : Transport.State, io'.delivered = [.request (sampleTurns 0)] ∧ io'.accepted.length = 1 ∧ io'.writer = .idle ∧
    (∃ as, Pool.Steps k (Pool.start {} 1) as ⟨io', [.idle]⟩) ∧
    (∃ as, Session.Steps k sampleHandler { app := .idle } as { io := io', app := .idle }) ∧
    (∃ as p, Pool.Steps k (Pool.start {} 2) as p ∧ p.io = io') ∧
    (∃ as c, Crew.Steps k (fun r ms => ms = [reply r]) { io := {} } as c ∧ c.io = io' ∧ Pool.Act.drop ∉ as) ∧
    (∃ as p, Pool.Steps k (Pool.start {} 8) as p ∧ p.io = io') := by
  have hst := fun i => all_step (k := k) (a := []) (b := []) resting_start sampleTurns_carries sampleTurns_stay i
  have nodrop : ∀ n, ∃ as, Pool.Steps k (Pool.start {} 1) as (allTheTime {} sampleFrames sampleTurns [] [] n) ∧ Pool.Act.drop ∉ as := by
    intro n
    induction n with
    | zero => exact ⟨[], .nil _, by simp⟩
    | succ n ih =>
      obtain ⟨as, h, h0⟩ := ih
      obtain ⟨a, h1⟩ := hst n
      refine ⟨_, .snoc h h1, ?_⟩
      simp only [List.mem_append, List.mem_singleton, not_or]
      refine ⟨h0, ?_⟩
      rintro rfl
      generalize hp : allTheTime {} sampleFrames sampleTurns [] [] n = p at h1
      generalize hq : allTheTime {} sampleFrames sampleTurns [] [] (n + 1) = q at h1
      have hw : ∃ x, x ∈ p.workers ∧ ∀ r, x ≠ .ended r := by
        rw [← hp]
        unfold allTheTime onTheWay
        split <;> exact ⟨_, List.mem_cons_self .., by simp⟩
      obtain ⟨x, hx, he⟩ := hw
      cases h1 with
      | io h3 h4 => cases h3 <;> cases h4
      | dropRx h3 => obtain ⟨r, h5⟩ := h3 x hx; exact he r h5
      | dropTx h3 => obtain ⟨r, h5⟩ := h3 x hx; exact he r h5
  obtain ⟨as, h1, h2⟩ := nodrop 6
  refine ⟨(allTheTime {} sampleFrames sampleTurns [] [] 6).io, rfl, rfl, rfl, ⟨as, h1⟩, ?_, ?_, ?_⟩
  · obtain ⟨as', app, e, h3, _⟩ := C133_loop (process := sampleHandler) h1
    cases e
    exact ⟨as', h3⟩
  · exact ⟨as, _, C133_more h1 h2, rfl⟩
  · have hs : Spec.NoShutdown [Message.request (sampleTurns 0)] := by
      intro id hm
      have e : Message.request (.shutdown id) = .request (sampleTurns 0) := by simpa using hm
      exact sampleTurns_stay 0 id (Message.request.inj e).symm
    obtain ⟨as', c, h3, h4, h5⟩ := C133_threads h1 h2 hs
    have h6 : Pool.Act.drop ∉ as' := fun hm => h2 (h5.subset hm)
    refine ⟨⟨as', c, h3, h4, h6⟩, ?_⟩
    have hc : c.io.delivered = [.request (sampleTurns 0)] := by rw [h4]; rfl
    obtain ⟨as'', p, h7, h8, _⟩ := C133_enough (n := 7) h3 h6 (by simpa [hc] using hs) (by rw [hc]; simp [Spec.requests])
    exact ⟨as'', p, h7, h8.trans h4⟩

theorem sampleDone_carries : Spec.Carries (framed ((sampleTalk.take 3).drop 2)) [.notification .initialized] :=
  carries_framed fun x hx => sampleTalk_ok x (List.mem_append_left _ (List.mem_of_mem_take (List.mem_of_mem_drop hx)))

/-- Beside C133_room and C133_needed: a hundred requests and a notification are received by threads, and by a hundred and one
workers, before anything is sent; not by a hundred. -/
example (k : Kind) : ∃ io' : Transport.State, io'.delivered.length = 101 ∧ io'.accepted = [] ∧
    (∃ as p, Pool.Steps k (Pool.start {} 101) as p ∧ p.io = io') ∧
    ¬ ∃ as p, Pool.Steps k (Pool.start {} 100) as p ∧ p.io = io' := by
  obtain ⟨as, c, h1, h2, h3, h4, h5⟩ := C133_needed (k := k) resting_start sampleTurns_carries sampleTurns_stay sampleDone_carries
    (by simp) 100
  have e : c.io.delivered.drop ({} : Transport.State).delivered.length =
      ((List.range 100).map fun j => .request (sampleTurns j)) ++ [.notification .initialized] := by
    rw [h3]; rfl
  have hs : Spec.NoShutdown (c.io.delivered.drop ({} : Transport.State).delivered.length) := by
    rw [e]
    intro id hm
    simp only [List.mem_append, List.mem_map, List.mem_singleton, reduceCtorEq, or_false] at hm
    obtain ⟨j, _, h⟩ := hm
    exact sampleTurns_stay j id (Message.request.inj h)
  obtain ⟨as', p, h6, h7, _⟩ := C133_enough (n := 100) h1 h2 hs (by
    rw [e, reqs_append, requests_of]
    simp [Spec.requests])
  refine ⟨c.io, by rw [h3]; simp, h4, ⟨as', p, h6, h7⟩, ?_⟩
  rintro ⟨as'', q, h8, h9⟩
  exact h5 as'' q h8 h9

/-- Beside C133_one. -/
example (k : Kind) : ∃ as, Pool.Steps k (Pool.start {} 1) as ⟨{ inEnd := some false }, [.idle]⟩ := by
  have h : Session.Steps k sampleHandler { app := .idle } [.peer] { io := { inEnd := some false }, app := .idle } :=
    .snoc (as := []) (.nil _) (.io (p := { app := .idle }) rfl (.hangUp {} false rfl) rfl)
  obtain ⟨as, h1, _⟩ := C133_one h rfl
  exact ⟨as, h1⟩

end
end Bsp
