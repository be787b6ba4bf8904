/-
C63: the documented main loop.
-/
import Verif.Readme
import Verif.Props.Conn

namespace Bsp
open Conn

section
variable [Ext]

/-! ### Specification -/

/-- The requests among some messages. -/
def Spec.requests : List Message → List Request
  | [] => []
  | .request r :: t => r :: Spec.requests t
  | _ :: t => Spec.requests t

/-- The response to a request other than shutdown: it has the id of the request; the result is an empty list of
targets or sources, or else there is no result but an error with code -32601. -/
def Spec.IsReply (r : Request) (m : Message) : Prop :=
  ∃ x : Response, m = .response x ∧ x.id = r.id ∧
    match r with
    | .workspaceBuildTargets _ =>
      (x.result.map (·.json)) = some (.obj [("targets", .arr [])]) ∧ x.error = none
    | .buildTargetSources _ _ =>
      (x.result.map (·.json)) = some (.obj [("items", .arr [])]) ∧ x.error = none
    | _ => x.result = none ∧ ∃ t, x.error = some ⟨-32601, t, none⟩

/-- One response for each request, in order. -/
inductive Spec.Replies : List Request → List Message → Prop
  | nil : Replies [] []
  | cons : Spec.IsReply r m → Replies rs ms → Replies (r :: rs) (m :: ms)

theorem isReply (r : Request) : Spec.IsReply r (reply r) := by
  cases r with
  | workspaceBuildTargets id => exact ⟨_, rfl, rfl, rfl, rfl⟩
  | buildTargetSources id p => exact ⟨_, rfl, rfl, rfl, rfl⟩
  | _ => exact ⟨_, rfl, rfl, rfl, _, rfl⟩

theorem replies (rs : List Request) : Spec.Replies rs (rs.map reply) := by
  induction rs with
  | nil => exact .nil
  | cons r rs ih => exact .cons (isReply r) ih

/-- No request to shut down. -/
def Spec.NoShutdown (ms : List Message) : Prop := ∀ id, Message.request (.shutdown id) ∉ ms

variable [Dbg]

/-! ### One round -/

theorem block_shutdown {w : World} {t id rest} (hi : w.inp = (t, .request (.shutdown id)) :: rest) :
    block w = match handleShutdown (.shutdown id) { w with inp := rest, now := max w.now t } with
      | (.ok _, w2) => (.ok (), w2)
      | (.err e, w2) => (.err e, w2)
      | (.panic, w2) => (.panic, w2)
      | (.blocked, w2) => (.blocked, w2) := by
  obtain ⟨inp, fin, out, outEnd, now, sent, calls⟩ := w
  simp only at hi
  subst hi
  conv => lhs; unfold block
  split <;> rename_i h <;> simp only [recv] at h <;> cases h <;> first | rfl | simp_all

theorem block_request {w : World} {t r rest} (hi : w.inp = (t, .request r) :: rest)
    (hr : ∀ id, r ≠ .shutdown id) :
    block w =
      match w.out with
      | d :: ds => block { w with inp := rest, out := ds, now := max w.now t + d,
                                  sent := w.sent ++ [reply r] }
      | [] => (match w.outEnd with | .closed => .err "sending on a disconnected channel" | .stuck => .blocked,
               { w with inp := rest, now := max w.now t }) := by
  obtain ⟨inp, fin, out, outEnd, now, sent, calls⟩ := w
  simp only at hi
  subst hi
  conv => lhs; unfold block
  split
  · rename_i h; simp only [recv] at h; cases h; exact absurd rfl (hr _)
  · rename_i h
    simp only [recv] at h
    cases h
    cases out with
    | nil =>
      cases outEnd <;> split <;> rename_i h <;> simp only [send] at h <;> cases h
      · rfl
      · simp_all
      · rfl
    | cons d ds =>
      split <;> rename_i h <;> simp only [send] at h <;> cases h
      · rfl
      · simp_all
  · rename_i h; simp only [recv] at h; cases h; simp_all
  · rename_i h; simp only [recv] at h; cases h
  · rename_i h; simp only [recv] at h; cases h; simp_all

theorem block_other {w : World} {t m rest} (hi : w.inp = (t, m) :: rest) (hm : ∀ r, m ≠ .request r) :
    block w = block { w with inp := rest, now := max w.now t } := by
  obtain ⟨inp, fin, out, outEnd, now, sent, calls⟩ := w
  simp only at hi
  subst hi
  conv => lhs; unfold block
  split <;> rename_i h <;> simp only [recv] at h <;> cases h <;> first
    | rfl
    | exact absurd rfl (hm _)
    | simp_all

theorem block_end {w : World} (hi : w.inp = []) :
    (∃ t, w.fin = .closedAt t ∧ block w = (.ok (), { w with now := max w.now t })) ∨
    (w.fin = .silent ∧ block w = (.blocked, w)) := by
  obtain ⟨inp, fin, out, outEnd, now, sent, calls⟩ := w
  simp only at hi
  subst hi
  unfold block
  cases fin with
  | closedAt t =>
    left
    refine ⟨t, rfl, ?_⟩
    split <;> rename_i h <;> simp only [recv] at h <;> cases h
    · rfl
    · simp_all
  | silent =>
    right
    refine ⟨rfl, ?_⟩
    split <;> rename_i h <;> simp only [recv] at h <;> cases h
    rfl

/-- Going through messages without shutdown request, while there is room. -/
theorem block_pre (pre : List (Nat × Message)) : ∀ {w : World} {rest},
    w.inp = pre ++ rest → Spec.NoShutdown (pre.map (·.2)) →
    (Spec.requests (pre.map (·.2))).length ≤ w.out.length →
    ∃ now, block w = block { w with
      inp := rest, out := w.out.drop (Spec.requests (pre.map (·.2))).length, now := now,
      sent := w.sent ++ (Spec.requests (pre.map (·.2))).map reply } := by
  induction pre with
  | nil => intro w rest hi _ _; exact ⟨w.now, by simp at hi; simp [← hi, Spec.requests]⟩
  | cons p pre ih =>
    intro w rest hi hn hl
    obtain ⟨t, m⟩ := p
    have hn' : Spec.NoShutdown (pre.map (·.2)) := fun id h => hn id (by simp at h ⊢; exact .inr h)
    by_cases hm : ∃ r, m = .request r
    · obtain ⟨r, rfl⟩ := hm
      simp only [List.map_cons, Spec.requests, List.length_cons] at hl ⊢
      cases ho : w.out with
      | nil => simp [ho] at hl
      | cons d ds =>
        rw [block_request (t := t) (r := r) hi (fun id h => hn id (by simp [h])), ho]
        obtain ⟨now, h⟩ := ih (w := { w with
          inp := pre ++ rest, out := ds, now := max w.now t + d,
          sent := w.sent ++ [reply r] }) rfl hn' (by simp [ho] at hl; simpa using hl)
        exact ⟨now, h.trans (by simp)⟩
    · have e : Spec.requests ((((t, m) :: pre)).map (·.2)) = Spec.requests (pre.map (·.2)) := by
        cases m with
        | request r => exact absurd ⟨r, rfl⟩ hm
        | _ => rfl
      rw [e] at hl ⊢
      rw [block_other (t := t) (m := m) hi (fun r h => hm ⟨r, h⟩)]
      obtain ⟨now, h⟩ := ih (w := { w with inp := pre ++ rest, now := max w.now t }) rfl hn' hl
      exact ⟨now, h⟩

omit [Dbg] in
theorem split_inp {inp : List (Nat × Message)} {a b : List Message} (h : inp.map (·.2) = a ++ b) :
    ∃ x y, inp = x ++ y ∧ x.map (·.2) = a ∧ y.map (·.2) = b :=
  ⟨inp.take a.length, inp.drop a.length, by simp, by simp [List.map_take, h], by simp [List.map_drop, h]⟩

/-! ### C63 -/

/-- C63: until shutdown, every request gets exactly one response, in order; notifications and responses get none;
when the peer hangs up the loop ends well. -/
theorem C63_hang_up (w : World) (t : Nat) (hf : w.fin = .closedAt t) (hn : Spec.NoShutdown w.msgs)
    (hl : (Spec.requests w.msgs).length ≤ w.out.length) :
    (block w).1 = .ok () ∧
    ∃ rs, (block w).2.sent = w.sent ++ rs ∧ Spec.Replies (Spec.requests w.msgs) rs := by
  obtain ⟨now, h⟩ := block_pre w.inp (rest := []) (by simp) hn hl
  rw [h]
  rcases block_end (w := { w with
      inp := [], out := w.out.drop (Spec.requests w.msgs).length, now := now,
      sent := w.sent ++ (Spec.requests w.msgs).map reply }) rfl with ⟨t', h1, h2⟩ | ⟨h1, h2⟩
  · rw [World.msgs] at h2
    rw [h2]
    exact ⟨rfl, _, rfl, replies _⟩
  · simp [hf] at h1

theorem shutdown_consumes {id : RequestId} {w : World} {t m r} (hi : w.inp = (t, m) :: r)
    (h : (handleShutdown (.shutdown id) w).1 = .ok true) :
    (handleShutdown (.shutdown id) w).2.inp = r := by
  obtain ⟨inp, fin, out, outEnd, now, sent, calls⟩ := w
  simp only at hi
  subst hi
  have key : ∀ w1 : World, w1.inp = (t, m) :: r → (awaitExit w1).1 = .ok true →
      (awaitExit w1).2.inp = r := by
    intro w1 h1 h2
    simp only [awaitExit, recvTimeout, h1] at h2 ⊢
    split at h2
    · rename_i h3
      split at h3
      · cases h3; rfl
      · cases h3
    all_goals cases h2
  cases out with
  | cons d ds => simp only [handleShutdown, send] at h ⊢; exact key _ rfl h
  | nil =>
    cases outEnd with
    | closed => simp only [handleShutdown, send] at h ⊢; exact key _ rfl h
    | stuck => simp [handleShutdown, send] at h

theorem block_shutdown_eq {w : World} {t id rest} (hi : w.inp = (t, .request (.shutdown id)) :: rest) :
    (block w).2 = (handleShutdown (.shutdown id) { w with inp := rest, now := max w.now t }).2 ∧
    ((block w).1 = .ok () ↔
      (handleShutdown (.shutdown id) { w with inp := rest, now := max w.now t }).1 = .ok true) := by
  rw [block_shutdown hi]
  have h := C49_otherwise id { w with inp := rest, now := max w.now t }
  cases hh : handleShutdown (.shutdown id) { w with inp := rest, now := max w.now t } with
  | mk o w2 =>
    rw [hh] at h
    cases o with
    | ok b =>
      refine ⟨rfl, ⟨fun _ => ?_, fun _ => rfl⟩⟩
      cases b with
      | true => rfl
      | false =>
        rcases h (by simp) with ⟨_, e, h⟩ | ⟨_, h⟩ <;> cases h
    | _ => exact ⟨rfl, ⟨fun h => (by cases h), fun h => (by cases h)⟩⟩

/-- C63: with a shutdown request, the requests before it get one response each, in order, then it gets one (null);
after it at most one message is consumed; the loop ends well only if that message is exit. -/
theorem C63_shutdown (w : World) (pre rest : List Message) (id : RequestId)
    (hm : w.msgs = pre ++ .request (.shutdown id) :: rest) (hn : Spec.NoShutdown pre)
    (hl : (Spec.requests pre).length + 1 ≤ w.out.length) :
    ∃ rs used, (block w).2.sent = w.sent ++ rs ++ [.response ⟨id, some Value.null, none⟩] ∧
      Spec.Replies (Spec.requests pre) rs ∧
      rest = used ++ (block w).2.msgs ∧ used.length ≤ 1 ∧
      ((block w).1 = .ok () → used = [.notification .exit]) := by
  obtain ⟨x, y, hi, rfl, hy⟩ := split_inp hm
  cases y with
  | nil => simp at hy
  | cons q y =>
    obtain ⟨t, q⟩ := q
    simp only [List.map_cons, List.cons.injEq] at hy
    obtain ⟨rfl, rfl⟩ := hy
    obtain ⟨now, h⟩ := block_pre x hi hn (by omega)
    rw [h]
    generalize hw : ({ w with
      inp := (t, .request (.shutdown id)) :: y, out := w.out.drop (Spec.requests (x.map (·.2))).length,
      now := now, sent := w.sent ++ (Spec.requests (x.map (·.2))).map reply } : World) = w1
    have hi1 : w1.inp = (t, .request (.shutdown id)) :: y := by rw [← hw]
    have ho1 : w1.out ≠ [] := by
      rw [← hw]
      intro h
      have := congrArg List.length h
      simp at this
      omega
    have hs1 : w1.sent = w.sent ++ (Spec.requests (x.map (·.2))).map reply := by rw [← hw]
    obtain ⟨h1, h2⟩ := block_shutdown_eq hi1
    obtain ⟨h3, _, used, h4, h5⟩ := C49_response id { w1 with inp := y, now := max w1.now t }
    refine ⟨_, used, ?_, replies _, ?_, h5, ?_⟩
    · rw [h1, h3 ho1]
      simp only [hs1]
    · rw [h1]; exact h4
    · intro ht
      rw [h2] at ht
      obtain ⟨t', r, start, h6, _, _⟩ := (C49_exit ..).1 ht
      simp only at h6
      subst h6
      cases used with
      | nil =>
        exfalso
        have e := shutdown_consumes rfl ht
        have := congrArg List.length h4
        simp [World.msgs, e] at this
      | cons m used =>
        simp only [World.msgs, List.map_cons, List.cons_append, List.cons.injEq] at h4
        simp only [List.length_cons] at h5
        have : used = [] := List.length_eq_zero_iff.1 (by omega)
        rw [this, ← h4.1]

/-- C63: the loop ends well if exit arrives at most 30 seconds after the shutdown request arrived. -/
theorem C63_exit_in_time (w : World) (pre : List (Nat × Message)) (id : RequestId) (ts te : Nat)
    (rest : List (Nat × Message))
    (hi : w.inp = pre ++ (ts, .request (.shutdown id)) :: (te, .notification .exit) :: rest)
    (hn : Spec.NoShutdown (pre.map (·.2)))
    (hl : (Spec.requests (pre.map (·.2))).length + 1 ≤ w.out.length) (ht : te ≤ ts + 30000) :
    (block w).1 = .ok () ∧ (block w).2.inp = rest := by
  obtain ⟨now, h⟩ := block_pre pre hi hn (by omega)
  rw [h]
  obtain ⟨h1, h2⟩ := block_shutdown_eq (w := { w with
    inp := (ts, .request (.shutdown id)) :: (te, .notification .exit) :: rest,
    out := w.out.drop (Spec.requests (pre.map (·.2))).length,
    now := now, sent := w.sent ++ (Spec.requests (pre.map (·.2))).map reply }) rfl
  rw [h2, h1]
  have ho : w.out.drop (Spec.requests (pre.map (·.2))).length ≠ [] := by
    intro h
    have := congrArg List.length h
    simp at this
    omega
  have hok := (C49_exit id { w with
    inp := (te, .notification .exit) :: rest, out := w.out.drop (Spec.requests (pre.map (·.2))).length,
    now := max now ts, sent := w.sent ++ (Spec.requests (pre.map (·.2))).map reply }).2 (by
      cases hd : w.out.drop (Spec.requests (pre.map (·.2))).length with
      | nil => exact absurd hd ho
      | cons d ds => exact ⟨te, rest, max now ts + d, rfl, rfl, by omega⟩)
  exact ⟨hok, shutdown_consumes rfl hok⟩

/-- C63: when the responses cannot be sent any more the loop ends with an error at the next request, and the requests
before have got theirs. -/
theorem C63_send_fails (w : World) (pre rest : List Message) (r : Request)
    (hm : w.msgs = pre ++ .request r :: rest) (hn : Spec.NoShutdown (pre ++ [.request r]))
    (hl : (Spec.requests pre).length = w.out.length) (ho : w.outEnd = .closed) :
    ∃ e rs, (block w).1 = .err e ∧ (block w).2.sent = w.sent ++ rs ∧
      Spec.Replies (Spec.requests pre) rs ∧ (block w).2.msgs = rest := by
  obtain ⟨x, y, hi, rfl, hy⟩ := split_inp hm
  cases y with
  | nil => simp at hy
  | cons q y =>
    obtain ⟨t, q⟩ := q
    simp only [List.map_cons, List.cons.injEq] at hy
    obtain ⟨rfl, rfl⟩ := hy
    obtain ⟨now, h⟩ := block_pre x hi (fun id h => hn id (by simp at h ⊢; exact .inl h)) (by omega)
    have h2 := block_request (w := { w with
      inp := (t, .request r) :: y, out := w.out.drop (Spec.requests (x.map (·.2))).length,
      now := now, sent := w.sent ++ (Spec.requests (x.map (·.2))).map reply }) rfl
      (fun id h => hn id (by simp [h]))
    have hd : w.out.drop (Spec.requests (x.map (·.2))).length = [] := by rw [hl]; simp
    rw [h, h2]
    simp only [hd, ho]
    exact ⟨_, _, rfl, rfl, replies _, rfl⟩

/-- A successful handshake, with everything known after it. -/
theorem hs_success {process : InitializeBuild → Option Value} {w : World} {early : List Request}
    {tail : List Message} {id p v}
    (hm : w.msgs = early.map .request ++ .request (.initializeBuild id p) ::
      .notification .initialized :: tail)
    (he : ∀ r ∈ early, Spec.Early r) (hl : early.length + 1 ≤ w.out.length) (hv : process p = some v) :
    ∃ pre rest now, w.inp = pre ++ rest ∧ rest.map (·.2) = tail ∧ handshake process w = (.ok p, { w with
      inp := rest, out := w.out.drop (early.length + 1), now := now,
      sent := w.sent ++ early.map refusal ++ [.response (.ok id v)], calls := w.calls ++ [p] }) := by
  obtain ⟨e, r, hi, rfl, hr⟩ := timed hm
  obtain ⟨now, h⟩ := start_early e hi (fun p hp => he p.2 (List.mem_map_of_mem hp))
    (by simp at hl; omega)
  match r, hr with
  | [], hr => simp at hr
  | [_], hr => simp at hr
  | x :: y :: r, hr =>
    simp only [List.map_cons, List.cons.injEq] at hr
    obtain ⟨hx, hy, rfl⟩ := hr
    have h2 := start_init (w := { w with
        inp := x :: y :: r, out := w.out.drop e.length, now := now,
        sent := w.sent ++ (e.map (·.2)).map refusal }) (t := x.1) (id := id) (p := p) (rest := y :: r)
        (by rw [← hx])
    cases hd : w.out.drop e.length with
    | nil =>
      have := congrArg List.length hd
      simp at this hl
      omega
    | cons d ds =>
      obtain ⟨o, h3, h4⟩ := finish_next (w := { w with
          inp := y :: r, out := d :: ds, now := max now x.1,
          sent := w.sent ++ (e.map (·.2)).map refusal, calls := w.calls ++ [p] })
          (id := id) (v := v) (t := y.1) (m := y.2) (rest := r) rfl rfl
      rcases h4 with ⟨h4, rfl⟩ | ⟨h4, _⟩
      · refine ⟨e.map (fun p => (p.1, .request p.2)) ++ [x, y], r, max (max now x.1 + d) y.1, by rw [hi]; simp, rfl, ?_⟩
        rw [hd] at h2
        have e1 : w.out.drop (e.length + 1) = ds := by
          rw [← List.drop_drop, hd]; rfl
        unfold handshake
        rw [h, hd, h2]
        simp only [hv, h3, List.length_map, e1]
      · exact absurd hy h4

/-- C63 for the whole of `main`: every request received is answered exactly once, in order: the early ones by a
refusal, build/initialize by the value of the handler, the later ones by the loop, shutdown by null.  After the
shutdown request at most one message is consumed, and the whole ends well only if it is exit. -/
theorem C63_serve (process : InitializeBuild → Option Value) (w : World) (early : List Request)
    (i id : RequestId) (p : InitializeBuild) (v : Value) (pre rest : List Message)
    (hm : w.msgs = early.map .request ++ .request (.initializeBuild i p) :: .notification .initialized ::
      (pre ++ .request (.shutdown id) :: rest))
    (he : ∀ r ∈ early, ∀ i q, r ≠ .initializeBuild i q) (hn : Spec.NoShutdown pre)
    (hv : process p = some v) (hl : early.length + 1 + (Spec.requests pre).length + 1 ≤ w.out.length) :
    ∃ refs rs used, (serve process w).2.sent = w.sent ++ refs ++ [.response ⟨i, some v, none⟩] ++ rs ++
        [.response ⟨id, some Value.null, none⟩] ∧
      Spec.Refusals early refs ∧ Spec.Replies (Spec.requests pre) rs ∧
      rest = used ++ (serve process w).2.msgs ∧ used.length ≤ 1 ∧
      ((serve process w).1 = .ok () → used = [.notification .exit]) := by
  obtain ⟨_, r, now, _, hr, hh⟩ := hs_success hm he (by omega) hv
  obtain ⟨rs, used, h1, h2, h3, h4, h5⟩ := C63_shutdown { w with
      inp := r, out := w.out.drop (early.length + 1), now := now,
      sent := w.sent ++ early.map refusal ++ [.response (.ok i v)], calls := w.calls ++ [p] } pre rest id
      hr hn (by simp; omega)
  have e : serve process w = block { w with
      inp := r, out := w.out.drop (early.length + 1), now := now,
      sent := w.sent ++ early.map refusal ++ [.response (.ok i v)], calls := w.calls ++ [p] } := by
    simp only [serve, hh]
  rw [e]
  exact ⟨_, rs, used, h1, refusals _, h2, h3, h4, h5⟩

end

/-! ### Concrete cases -/

section
attribute [local instance] Ext.sample Dbg.sample

/-- A run of the loop: two requests and a notification, then shutdown and exit. -/
def sampleLoop : World where
  inp := [(1, .request (.workspaceBuildTargets (.i32 1))), (2, .notification .initialized),
    (3, .request (.workspaceReload (.str "a"))), (4, .request (.shutdown (.i32 2))),
    (30004, .notification .exit), (5, .request (.workspaceReload (.i32 9)))]
  fin := .silent
  out := [0, 5, 7]
  outEnd := .stuck

theorem sampleLoop_pre : Spec.NoShutdown [.request (.workspaceBuildTargets (.i32 1)),
    .notification .initialized, .request (.workspaceReload (.str "a"))] := by
  intro id h
  simp at h

/-- Beside C63: it ends well, with three responses; what follows exit is left. -/
example : (block sampleLoop).1 = .ok () ∧ (block sampleLoop).2.msgs = [.request (.workspaceReload (.i32 9))] ∧
    (block sampleLoop).2.sent.length = 3 := by
  have h := C63_exit_in_time sampleLoop (sampleLoop.inp.take 3) (.i32 2) 4 30004 _ rfl
    (by exact sampleLoop_pre) (by decide) (by decide)
  refine ⟨h.1, by rw [World.msgs, h.2]; rfl, ?_⟩
  obtain ⟨rs, used, h1, h2, _⟩ := C63_shutdown sampleLoop (pre := [.request (.workspaceBuildTargets (.i32 1)),
    .notification .initialized, .request (.workspaceReload (.str "a"))]) _ _ rfl sampleLoop_pre (by decide)
  rw [h1]
  cases h2 with
  | cons _ h2 =>
    cases h2 with
    | cons _ h2 => cases h2; rfl

/-- Beside C63: the peer hangs up instead; or takes only one response. -/
example : (block { sampleLoop with inp := sampleLoop.inp.take 3, fin := .closedAt 9 }).1 = .ok () ∧
    ∃ e, (block { sampleLoop with out := [0], outEnd := .closed }).1 = .err e := by
  constructor
  · exact (C63_hang_up { sampleLoop with inp := sampleLoop.inp.take 3, fin := .closedAt 9 } 9 rfl
      sampleLoop_pre (by decide)).1
  · obtain ⟨e, _, h, _⟩ := C63_send_fails { sampleLoop with out := [0], outEnd := .closed }
      [.request (.workspaceBuildTargets (.i32 1)), .notification .initialized] _ _ rfl (by exact sampleLoop_pre)
      rfl rfl
    exact ⟨e, h⟩

/-- Beside C63 for `main`: the handshake of `sampleWorld` and then the loop. -/
example : ∃ refs rs used, (serve (fun _ => some Value.null)
      { sampleWorld with inp := sampleWorld.inp ++ sampleLoop.inp, out := List.replicate 7 1 }).2.sent =
      [] ++ refs ++ [.response ⟨.i32 2, some Value.null, none⟩] ++ rs ++
        [.response ⟨.i32 2, some Value.null, none⟩] ∧
    refs.length = 2 ∧ Spec.Replies [.workspaceBuildTargets (.i32 3), .workspaceBuildTargets (.i32 1),
      .workspaceReload (.str "a")] rs ∧ used.length ≤ 1 ∧
    [.notification .exit, .request (.workspaceReload (.i32 9))] = used ++ (serve (fun _ => some Value.null)
      { sampleWorld with inp := sampleWorld.inp ++ sampleLoop.inp, out := List.replicate 7 1 }).2.msgs := by
  obtain ⟨refs, rs, used, h1, h2, h3, h4, h5, _⟩ := C63_serve (fun _ => some Value.null)
    { sampleWorld with inp := sampleWorld.inp ++ sampleLoop.inp, out := List.replicate 7 1 }
    [.shutdown (.i32 1), .workspaceReload (.str "a")] (.i32 2) (.i32 2) sampleInit Value.null
    [.request (.workspaceBuildTargets (.i32 3)), .request (.workspaceBuildTargets (.i32 1)),
      .notification .initialized, .request (.workspaceReload (.str "a"))] _ rfl sampleEarly
    (by intro id h; simp at h) rfl (by decide)
  exact ⟨refs, rs, used, h1, h2.length, h3, h5, h4⟩

end
end Bsp
