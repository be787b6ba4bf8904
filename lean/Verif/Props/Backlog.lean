/-
C131: how many requests a server holds at a time.
-/
import Verif.Props.Crew

namespace Bsp
open Frame Json Conn Transport Session

section
variable [Ext] [Dbg] [FloatText] {k : Kind} {process : InitializeBuild → Option Value}

omit [Ext] [Dbg] [FloatText] in
/-- How many requests to shut down there are. -/
def Spec.shutdowns : List Message → Nat
  | [] => 0
  | .request (.shutdown _) :: ms => Spec.shutdowns ms + 1
  | _ :: ms => Spec.shutdowns ms

/-! ### The loop of the README -/

/-- Where the program is, given what it has received and sent, whatever has gone wrong. -/
def Lag (process : InitializeBuild → Option Value) (p : Proc) : Prop :=
  match p.app with
  | .start | .confirming | .idle => (feed process .start p.io.delivered).1 = p.app ∧
      (feed process .start p.io.delivered).2.length ≤ p.io.accepted.length
  | .leaving => (feed process .start p.io.delivered).1 = .leaving ∧
      (feed process .start p.io.delivered).2.length ≤ p.io.accepted.length + 1
  | .ended _ => (feed process .start p.io.delivered).2.length ≤ p.io.accepted.length + 1
  | a => (feed process .start p.io.delivered).1 = onSent a true ∧
      (feed process .start p.io.delivered).2.length ≤ p.io.accepted.length + 1

omit [FloatText] in
theorem round_one (a : App) (m : Message) : (round process a m).2.length ≤ 1 := by
  unfold round
  split <;> simp

theorem lag {p : Proc} {as : List Session.Act} (h : Session.Steps k process {} as p) : Lag process p := by
  generalize h0 : ({} : Proc) = p0 at h
  induction h with
  | nil => subst h0; exact ⟨rfl, Nat.le_refl _⟩
  | @snoc as q a r _ hs ih =>
    cases hs with
    | io _ h2 h3 =>
      obtain ⟨e1, e2, _⟩ := io_same h2 h3
      unfold Lag at ih ⊢
      simp only [e1, e2]
      exact ih
    | @recv m io' _ h2 h3 =>
      have e1 : io'.delivered = q.io.delivered ++ [m] := by cases h3; rfl
      have e2 : io'.accepted = q.io.accepted := by cases h3; rfl
      have h5 := round_one (process := process) (feed process .start q.io.delivered).1 m
      obtain ⟨h6, h7⟩ : (feed process .start q.io.delivered).1 = q.app ∧
          ((feed process .start q.io.delivered).2.length ≤ q.io.accepted.length ∨ q.app = .leaving ∧
            (feed process .start q.io.delivered).2.length ≤ q.io.accepted.length + 1) := by
        revert h2 ih
        unfold Lag
        cases q.app <;> simp +contextual [App.receives]
      rw [h6] at h5
      have h8 : q.app = .leaving → (round process q.app m).2 = [] ∧ ∃ r, onRecv process q.app (some m) = .ended r := by
        intro e
        rw [e]
        unfold round
        cases m with
        | notification n => cases n <;> exact ⟨rfl, _, rfl⟩
        | _ => exact ⟨rfl, _, rfl⟩
      unfold Lag
      simp only [e1, e2, feed_snoc, h6, List.length_append]
      rcases h7 with h7 | ⟨h7, h9⟩
      · have key : ∀ b, onRecv process q.app (some m) = b →
            (toSend b = none → round process q.app m = (b, [])) ∧
            (∀ x, toSend b = some x → round process q.app m = (onSent b true, [x])) := by
          rintro b rfl
          unfold round
          exact ⟨fun e => by simp [e], fun x e => by simp [e]⟩
        generalize hb : onRecv process q.app (some m) = b at key ⊢
        obtain ⟨k1, k2⟩ := key b rfl
        cases b with
        | start | confirming | idle | leaving | ended => simp [k1 rfl]; omega
        | _ => rw [k2 _ rfl]; exact ⟨rfl, by simp; omega⟩
      · obtain ⟨h10, r, h11⟩ := h8 h7
        rw [h11, h10]
        simpa using h9
    | closed _ h2 h3 =>
      obtain ⟨r, e⟩ := Bsp.onRecv_none (process := process) h2
      unfold Lag at ih ⊢
      simp only [e]
      revert h2 ih
      cases q.app <;> simp +contextual [App.receives] <;> omega
    | @send m io' _ h2 h3 =>
      have e1 : io'.delivered = q.io.delivered := by cases h3; rfl
      have e2 : io'.accepted = q.io.accepted ++ [m] := by cases h3; rfl
      unfold Lag at ih ⊢
      simp only [e1, e2]
      revert h2 ih
      cases q.app <;> simp +contextual [toSend, onSent]
      all_goals omega
    | unsent _ h2 h3 =>
      unfold Lag at ih ⊢
      simp only
      revert h2 ih
      cases q.app <;> simp +contextual [toSend, onSent]
    | timeout _ h2 =>
      unfold Lag at ih ⊢
      rw [h2] at ih
      exact ih.2
    | _ => exact ih

omit [Dbg] in
/-- The messages that have been written whole. -/
theorem written_whole {s : Transport.State} (h : Transport.Reachable k s) : ∃ written, written <+: s.accepted ∧
    written.flatMap write <+: s.out ∧ s.accepted.length ≤ written.length + 1 := by
  rcases writeInv_split h with h1 | ⟨ms, m, sent, rest, h1, h2, h3⟩
  · exact ⟨s.accepted, List.prefix_refl _, by rw [h1]; exact List.prefix_refl _, by omega⟩
  · exact ⟨ms, ⟨[m], h1.symm⟩, ⟨sent, h3.symm⟩, by rw [h1]; simp⟩

/-- C131: the program of the README takes from its input at most three requests that are to be answered before it has
written the answers. -/
theorem C131_loop {p : Proc} {as : List Session.Act} (h : Session.Steps k process {} as p) :
    ∃ used heard written, p.io.arrived = used ++ p.io.unread ∧ Spec.Carries used heard ∧
      written <+: Spec.answers process heard ∧ written.flatMap write <+: p.io.out ∧
      (Spec.answers process heard).length ≤ written.length + 3 := by
  have hr := proc_reachable h
  obtain ⟨used, ps, h1, h2, h3⟩ := C51_frames hr
  obtain ⟨written, h4, h5, h6⟩ := written_whole hr
  have h7 : (feed process .start p.io.delivered).2.length ≤ p.io.accepted.length + 1 := by
    have := lag h
    unfold Lag at this
    revert this
    cases p.app <;> simp +contextual <;> omega
  refine ⟨used, p.io.delivered ++ ps, written, h1, h3, ?_, h5, ?_⟩
  · rw [answers_eq, feed_append]
    exact (h4.trans (mainInv h).sent).trans (List.prefix_append _ _)
  · rw [answers_eq, feed_append, List.length_append]
    have : (feed process (feed process .start p.io.delivered).1 ps).2.length ≤ 1 := by
      match ps, h2 with
      | [], _ => simp [feed]
      | [m], _ => simpa [feed] using round_one (process := process) _ m
    omega

/-! ### Workers -/

omit [Dbg] [FloatText] in
/-- What a worker holds, or has lost. -/
def holds : App → Nat
  | .answering _ | .ended _ => 1
  | _ => 0

omit [Dbg] [FloatText] in
/-- What the workers hold, or have lost. -/
def holding (l : List App) : Nat := (l.map holds).sum

omit [Dbg] [FloatText] in
theorem holding_mid (a b : List App) (x : App) : holding (a ++ x :: b) = holds x + holding (a ++ b) := by
  simp [holding]; omega

omit [Dbg] [FloatText] in
theorem holding_le (l : List App) : holding l ≤ l.length := by
  induction l with
  | nil => simp [holding]
  | cons x l ih =>
    have : holds x ≤ 1 := by cases x <;> simp [holds]
    simp [holding] at ih ⊢; omega

omit [Dbg] [FloatText] in
theorem shutdowns_append (a b : List Message) : Spec.shutdowns (a ++ b) = Spec.shutdowns a + Spec.shutdowns b := by
  fun_induction Spec.shutdowns a <;> simp_all [Spec.shutdowns] <;> omega

theorem pool_lag {io : Transport.State} {n : Nat} {p : Pool.State} {as : List Pool.Act} (hio : Reachable k io)
    (hx : io.rxAlive = true) (ht : io.txAlive = true) (ha : (Spec.requests io.delivered).length ≤ io.accepted.length)
    (h : Pool.Steps k (Pool.start io n) as p) :
    (Spec.requests p.io.delivered).length ≤ p.io.accepted.length + holding p.workers + Spec.shutdowns p.io.delivered := by
  have inv : ∀ {as q}, Pool.Steps k (Pool.start io n) as q → ∀ x ∈ q.workers, InLoop x := fun h => (poolInv hio hx ht h).inLoop
  generalize h0 : Pool.start io n = p0 at h inv
  induction h with
  | nil => subst h0; simp only [Pool.start]; omega
  | @snoc as q a r hq hs ih =>
    have hin := inv hq
    cases hs with
    | io h2 h3 =>
      obtain ⟨act', h5, _⟩ := pool_kind h3
      obtain ⟨e1, e2, _⟩ := io_same h2 h5
      simp only [e1, e2]
      exact ih
    | @recv io io' a b x m h2 h3 =>
      have e1 : io'.delivered = io.delivered ++ [m] := by cases h3; rfl
      have e2 : io'.accepted = io.accepted := by cases h3; rfl
      simp only [e1, e2, holding_mid, reqs_append, shutdowns_append, List.length_append] at ih ⊢
      have h4 : (Spec.requests [m]).length ≤ 1 := by cases m <;> simp [Spec.requests]
      rcases recv_cases (hin x (by simp)) h2 m with ⟨rfl, id, rfl, e⟩ | ⟨rfl, r, rfl, _, e⟩ | ⟨rfl, hm, e⟩ | ⟨rfl, rfl, e⟩ |
        ⟨rfl, _, y, e⟩ <;> rw [e] <;> simp only [holds, Spec.requests, Spec.shutdowns, List.length_cons, List.length_nil] at ih ⊢ <;>
        omega
    | @closed io a b x h2 h3 =>
      obtain ⟨r, e⟩ := Bsp.onRecv_none (process := fun _ => none) h2
      have : holds x ≤ 1 := by cases x <;> simp [holds]
      simp only [holding_mid, Pool.onRecv, e] at ih ⊢
      simp only [holds]
      omega
    | @send io io' a b x m h2 h3 =>
      have e1 : io'.delivered = io.delivered := by cases h3; rfl
      have e2 : io'.accepted = io.accepted ++ [m] := by cases h3; rfl
      have : holds x ≤ holds (onSent x true) + 1 := by cases x <;> simp [holds, onSent]
      simp only [e1, e2, holding_mid, List.length_append, List.length_singleton] at ih ⊢
      omega
    | @unsent io a b x m h2 h3 =>
      have : holds x ≤ holds (onSent x false) := by cases x <;> simp [holds, onSent]
      simp only [holding_mid] at ih ⊢
      omega
    | timeout =>
      simp only [holding_mid, holds] at ih ⊢
      omega
    | dropRx _ _ => exact ih
    | dropTx _ _ => exact ih

/-- C131: workers that share a connection take from its input at most one request each, and two, before the answers are
written, not counting requests to shut down. -/
theorem C131_pool {io : Transport.State} {n : Nat} {p : Pool.State} {as : List Pool.Act} (hio : Reachable k io)
    (hx : io.rxAlive = true) (ht : io.txAlive = true) (ha : (Spec.requests io.delivered).length ≤ io.accepted.length)
    (h : Pool.Steps k (Pool.start io n) as p) :
    ∃ used heard written, p.io.arrived = used ++ p.io.unread ∧ Spec.Carries used heard ∧
      written <+: p.io.accepted ∧ written.flatMap write <+: p.io.out ∧
      (Spec.requests heard).length ≤ written.length + n + 2 + Spec.shutdowns heard := by
  have hr := pool_reachable h hio
  obtain ⟨used, ps, h1, h2, h3⟩ := C51_frames hr
  obtain ⟨written, h4, h5, h6⟩ := written_whole hr
  have h7 := pool_lag hio hx ht ha h
  have h8 := holding_le p.workers
  rw [(poolInv hio hx ht h).len] at h8
  refine ⟨used, p.io.delivered ++ ps, written, h1, h3, h4, h5, ?_⟩
  rw [reqs_append, shutdowns_append, List.length_append]
  have : (Spec.requests ps).length ≤ 1 := by
    match ps, h2 with
    | [], _ => simp [Spec.requests]
    | [m], _ => cases m <;> simp [Spec.requests]
  omega

/-! ### As many as that -/

/-- C131: and so many it can hold: there is a run in which three requests have been taken from the input and nothing has
been written, though no write has failed. -/
theorem C131_loop_full {r1 r2 r3 : Request} {bs : Bytes} (h1 : Spec.Early r1) (h2 : Spec.Early r2)
    (hc : Spec.Carries bs [.request r1, .request r2, .request r3]) :
    ∃ as p, Session.Steps k process {} as p ∧ Session.Act.writeFails ∉ as ∧ p.io.arrived = bs ∧ p.io.unread = [] ∧
      p.io.out = [] := by
  obtain ⟨b2, f3, rfl, hc, t3⟩ := carries_last (k := k) (ms := [.request r1, .request r2]) hc
  obtain ⟨b1, f2, rfl, hc, t2⟩ := carries_last (k := k) (ms := [.request r1]) hc
  obtain ⟨b0, f1, rfl, hc, t1⟩ := carries_last (k := k) (ms := []) hc
  obtain rfl : b0 = [] := by
    generalize hn : ([] : List Message) = l at hc
    cases hc with
    | nil => rfl
    | snoc _ _ _ _ _ => simp at hn
  have early : ∀ {r : Request}, Spec.Early r → onRecv process .start (some (.request r)) = .refusing r := by
    intro r h
    cases r <;> first | rfl | exact absurd rfl (h _ _)
  let bs : Bytes := [] ++ f1 ++ f2 ++ f3
  let s0 : Transport.State := { arrived := bs, unread := bs }
  let s1 : Transport.State := { s0 with reader := .sending (.request r1), unread := f2 ++ f3 }
  have u1 : Session.Step k process { io := s0 } .thread { io := s1 } := .io rfl (t1 s0 rfl (f2 ++ f3) (by simp [s0, bs])) rfl
  let s2 : Transport.State := { s1 with reader := .reading, delivered := [.request r1] }
  have u2 : Session.Step k process { io := s1 } .main { io := s2, app := .refusing r1 } := by
    rw [← early h1]
    exact .recv rfl rfl (.deliver s1 (.request r1) rfl rfl)
  let s3 : Transport.State := { s2 with writer := .writing (Frame.write (refusal r1)), accepted := [refusal r1] }
  have u3 : Session.Step k process { io := s2, app := .refusing r1 } .main { io := s3 } :=
    .send rfl rfl (.accept s2 (refusal r1) rfl rfl)
  let s4 : Transport.State := { s3 with reader := .sending (.request r2), unread := f3 }
  have u4 : Session.Step k process { io := s3 } .thread { io := s4 } := .io rfl (t2 s3 rfl f3 rfl) rfl
  let s5 : Transport.State := { s4 with reader := .reading, delivered := [.request r1, .request r2] }
  have u5 : Session.Step k process { io := s4 } .main { io := s5, app := .refusing r2 } := by
    rw [← early h2]
    exact .recv rfl rfl (.deliver s4 (.request r2) rfl rfl)
  let s6 : Transport.State := { s5 with reader := .sending (.request r3), unread := [] }
  have u6 : Session.Step k process { io := s5, app := .refusing r2 } .thread { io := s6, app := .refusing r2 } :=
    .io rfl (t3 s5 rfl [] (by simp [s5, s4])) rfl
  have u0 : Session.Step k process {} .peer { io := s0 } := .io rfl (.arrive {} bs rfl) rfl
  exact ⟨_, _, steps_cons u0 (steps_cons u1 (steps_cons u2 (steps_cons u3 (steps_cons u4 (steps_cons u5
    (steps_cons u6 (.nil _))))))), by simp, rfl, rfl, rfl⟩

omit [FloatText] in
theorem hears {r : Request} (h : ∀ id, r ≠ .shutdown id) : Session.onRecv process .idle (some (.request r)) = .answering r := by
  cases r with
  | shutdown id => exact absurd rfl (h id)
  | _ => rfl

/-- Idle workers take what there is. -/
theorem pool_hoards {ms : List Message} {bs : Bytes} (hc : Spec.Carries bs ms) : ∀ {rs : List Request},
    ms = rs.map Message.request → (∀ r ∈ rs, ∀ id, r ≠ .shutdown id) → ∀ {io : Transport.State} {rest : Bytes} {b : List App},
    io.reader = .reading → io.unread = bs ++ rest → io.rxAlive = true →
    ∃ as, Pool.Steps k ⟨io, List.replicate rs.length .idle ++ b⟩ as
      ⟨{ io with unread := rest, delivered := io.delivered ++ ms }, rs.map .answering ++ b⟩ ∧ Pool.Act.writeFails ∉ as := by
  induction hc with
  | nil =>
    intro rs h1 _ io rest b h2 h3 h4
    obtain rfl : rs = [] := by cases rs <;> simp at h1 ⊢
    refine ⟨[], ?_, by simp⟩
    have : io = { io with unread := rest, delivered := io.delivered ++ [] } := by
      cases io; simp at h3; subst h3; simp
    rw [← this]
    exact .nil _
  | @snoc bs ms f cs j m hc hf hl hj hd ih =>
    intro rs h1 h2 io rest b h3 h4 h5
    obtain ⟨rs, r, rfl⟩ : ∃ l r, rs = l ++ [r] := by
      rcases List.eq_nil_or_concat rs with rfl | ⟨l, r, rfl⟩
      · simp at h1
      · exact ⟨l, r, List.concat_eq_append⟩
    rw [List.map_append] at h1
    obtain ⟨rfl, e⟩ := List.append_inj' h1 rfl
    obtain rfl := (List.cons.inj e).1
    obtain ⟨as, t1, n1⟩ := ih rfl (fun r hr => h2 r (List.mem_append_left _ hr)) (rest := f ++ rest) (b := .idle :: b) h3
      (by rw [h4, List.append_assoc]) h5
    let s1 : Transport.State := { io with unread := f ++ rest, delivered := io.delivered ++ rs.map .request }
    let s2 : Transport.State := { s1 with reader := .sending (.request r), unread := rest }
    have t2 : Pool.Step k ⟨s1, rs.map .answering ++ .idle :: b⟩ .thread ⟨s2, rs.map .answering ++ .idle :: b⟩ := by
      refine .io (a := .read) ?_ rfl
      obtain ⟨⟨s', h3⟩, h4⟩ := C51_progress (k := k) (s := s1) h3 (rest := rest) rfl hf hl hj hd
      rwa [h4 s' h3] at h3
    have t3 : Pool.Step k ⟨s2, rs.map .answering ++ .idle :: b⟩ .worker
        ⟨{ s2 with reader := .reading, delivered := s2.delivered ++ [.request r] }, rs.map .answering ++ .answering r :: b⟩ := by
      have : App.answering r = Pool.onRecv .idle (some (.request r)) := (hears (h2 r (by simp))).symm
      rw [this]
      exact .recv rfl (.deliver s2 (.request r) rfl h5)
    have e1 : List.replicate (rs ++ [r]).length App.idle ++ b = List.replicate rs.length .idle ++ .idle :: b := by
      rw [List.length_append, List.length_singleton, List.replicate_succ', List.append_assoc]; rfl
    rw [e1]
    refine ⟨as ++ [.thread, .worker], pool_append t1 (pool_cons t2 (pool_cons t3 ?_)), ?_⟩
    · have : (⟨{ s2 with reader := .reading, delivered := s2.delivered ++ [.request r] }, rs.map .answering ++ .answering r :: b⟩ :
          Pool.State) = ⟨{ io with unread := rest, delivered := io.delivered ++ (rs.map .request ++ [.request r]) },
            (rs ++ [r]).map .answering ++ b⟩ := by
        simp [s2, s1, h3]
      rw [this]
      exact .nil _
    · simpa using n1

/-- C131: and so many they can hold: there is a run in which as many requests as there are workers, and two more, have
been taken from the input and nothing has been written, though no write has failed. -/
theorem C131_pool_full {io : Transport.State} {n : Nat} (hio : Spec.Resting io) {rs : List Request} {a b : Request} {bs : Bytes}
    (hl : rs.length = n + 1) (hn : ∀ r ∈ rs ++ [a, b], ∀ id, r ≠ .shutdown id)
    (hc : Spec.Carries bs ((rs ++ [a, b]).map .request)) :
    ∃ as p, Pool.Steps k (Pool.start io (n + 1)) as p ∧ Pool.Act.writeFails ∉ as ∧ p.io.arrived = io.arrived ++ bs ∧
      p.io.unread = [] ∧ p.io.out = io.out := by
  obtain ⟨hr, hu, hi, hx, hw, ht⟩ := hio
  have e : (rs ++ [a, b]).map Message.request = (rs.map .request ++ [.request a]) ++ [.request b] := by simp
  rw [e] at hc
  obtain ⟨b1, f2, rfl, hc, r2⟩ := carries_last (k := k) hc
  obtain ⟨b0, f1, rfl, hc, r1⟩ := carries_last (k := k) hc
  match rs, hl, hn, hc with
  | r :: rs, hl, hn, hc =>
  let s1 : Transport.State := { io with arrived := io.arrived ++ (b0 ++ f1 ++ f2), unread := io.unread ++ (b0 ++ f1 ++ f2) }
  have t1 : Pool.Step k (Pool.start io (n + 1)) .peer ⟨s1, List.replicate (n + 1) .idle⟩ := .io (.arrive _ _ hi) rfl
  obtain ⟨as, t2, n2⟩ := pool_hoards (k := k) hc (rs := r :: rs) rfl (fun x hx => hn x (List.mem_append_left _ hx)) (io := s1)
    (rest := f1 ++ f2) (b := []) hr (by simp [s1, hu]) hx
  rw [List.append_nil, List.append_nil, hl] at t2
  let s2 : Transport.State := { s1 with unread := f1 ++ f2, delivered := s1.delivered ++ (r :: rs).map .request }
  let s3 : Transport.State := { s2 with writer := .writing (Frame.write (reply r)), accepted := s2.accepted ++ [reply r] }
  have t3 : Pool.Step k ⟨s2, (r :: rs).map .answering⟩ .worker ⟨s3, .idle :: rs.map .answering⟩ :=
    .send (a := []) (x := .answering r) rfl (.accept s2 (reply r) hw ht)
  let s4 : Transport.State := { s3 with reader := .sending (.request a), unread := f2 }
  have t4 : Pool.Step k ⟨s3, .idle :: rs.map .answering⟩ .thread ⟨s4, .idle :: rs.map .answering⟩ :=
    .io (r1 s3 hr f2 rfl) rfl
  let s5 : Transport.State := { s4 with reader := .reading, delivered := s4.delivered ++ [.request a] }
  have t5 : Pool.Step k ⟨s4, .idle :: rs.map .answering⟩ .worker ⟨s5, .answering a :: rs.map .answering⟩ := by
    have : App.answering a = Pool.onRecv .idle (some (.request a)) := (hears (hn a (by simp))).symm
    rw [this]
    exact .recv (a := []) rfl (.deliver s4 (.request a) rfl hx)
  let s6 : Transport.State := { s5 with reader := .sending (.request b), unread := [] }
  have t6 : Pool.Step k ⟨s5, .answering a :: rs.map .answering⟩ .thread ⟨s6, .answering a :: rs.map .answering⟩ :=
    .io (r2 s5 rfl [] (by simp [s5, s4])) rfl
  refine ⟨_, _, pool_cons t1 (pool_append t2 (pool_cons t3 (pool_cons t4 (pool_cons t5 (pool_cons t6 (.nil _)))))), ?_, rfl, rfl, rfl⟩
  simpa using n2

/-! ### A thread for each request -/

/-- C131: a server that starts a thread for each request can take any number of requests from its input before anything
is written. -/
theorem C131_crew {work : Request → List Message → Prop} {io : Transport.State} (hio : Spec.Resting io) {rs : List Request}
    {bs : Bytes} (hn : ∀ r ∈ rs, ∀ id, r ≠ .shutdown id) (hw : ∀ r ∈ rs, ∃ ms, work r ms)
    (hc : Spec.Carries bs (rs.map .request)) :
    ∃ as p, Crew.Steps k work { io := io } as p ∧ Pool.Act.writeFails ∉ as ∧ p.io.arrived = io.arrived ++ bs ∧
      p.io.unread = [] ∧ p.io.out = io.out ∧ p.io.accepted = io.accepted ∧ p.jobs.map (·.req) = rs := by
  obtain ⟨hr, hu, hi, hx, _, _⟩ := hio
  let s1 : Transport.State := { io with arrived := io.arrived ++ bs, unread := io.unread ++ bs }
  have t1 : Crew.Step k work { io := io } .peer { io := s1 } := .io (.arrive _ _ hi) rfl
  have key : ∀ {ms : List Message} {bs : Bytes}, Spec.Carries bs ms → ∀ {rs : List Request}, ms = rs.map Message.request →
      (∀ r ∈ rs, ∀ id, r ≠ .shutdown id) → (∀ r ∈ rs, ∃ ms, work r ms) → ∀ {io : Transport.State} {rest : Bytes},
      io.reader = .reading → io.unread = bs ++ rest → io.rxAlive = true →
      ∃ as jobs, Crew.Steps k work { io := io } as
        { io := { io with unread := rest, delivered := io.delivered ++ ms }, jobs := jobs } ∧ Pool.Act.writeFails ∉ as ∧
        jobs.map (·.req) = rs := by
    intro ms bs hc
    induction hc with
    | nil =>
      intro rs h1 _ _ io rest h2 h3 h4
      obtain rfl : rs = [] := by cases rs <;> simp at h1 ⊢
      refine ⟨[], [], ?_, by simp, rfl⟩
      have : io = { io with unread := rest, delivered := io.delivered ++ [] } := by
        cases io; simp at h3; subst h3; simp
      rw [← this]
      exact .nil _
    | @snoc bs ms f cs j m hc hf hl hj hd ih =>
      intro rs h1 h2 hw io rest h3 h4 h5
      obtain ⟨rs, r, rfl⟩ : ∃ l r, rs = l ++ [r] := by
        rcases List.eq_nil_or_concat rs with rfl | ⟨l, r, rfl⟩
        · simp at h1
        · exact ⟨l, r, List.concat_eq_append⟩
      rw [List.map_append] at h1
      obtain ⟨rfl, e⟩ := List.append_inj' h1 rfl
      obtain rfl := (List.cons.inj e).1
      obtain ⟨as, jobs, t1, n1, j1⟩ := ih rfl (fun r hr => h2 r (List.mem_append_left _ hr))
        (fun r hr => hw r (List.mem_append_left _ hr)) (rest := f ++ rest) h3 (by rw [h4, List.append_assoc]) h5
      let s1 : Transport.State := { io with unread := f ++ rest, delivered := io.delivered ++ rs.map .request }
      let s2 : Transport.State := { s1 with reader := .sending (.request r), unread := rest }
      have t2 : Crew.Step k work { io := s1, jobs := jobs } .thread { io := s2, jobs := jobs } := by
        refine .io (a := .read) ?_ rfl
        obtain ⟨⟨s', h3⟩, h4⟩ := C51_progress (k := k) (s := s1) h3 (rest := rest) rfl hf hl hj hd
        rwa [h4 s' h3] at h3
      obtain ⟨ms, hms⟩ := hw r (by simp)
      have t3 : Crew.Step k work { io := s2, jobs := jobs } .worker
          { io := { s2 with reader := .reading, delivered := s2.delivered ++ [.request r] },
            jobs := jobs ++ [{ req := r, left := ms }] } :=
        .hire (p := { io := s2, jobs := jobs }) rfl (.deliver s2 (.request r) rfl h5) (hears (h2 r (by simp))) hms
      refine ⟨as ++ [.thread, .worker], jobs ++ [{ req := r, left := ms }], crew_append t1 (crew_cons t2 (crew_cons t3 ?_)), ?_, by simp [j1]⟩
      · have : ({ s2 with reader := .reading, delivered := s2.delivered ++ [.request r] } : Transport.State) =
            { io with unread := rest, delivered := io.delivered ++ (rs.map .request ++ [.request r]) } := by
          simp [s2, s1, h3]
        rw [this]
        exact .nil _
      · simpa using n1
  obtain ⟨as, jobs, t2, n2, j2⟩ := key hc rfl hn hw (io := s1) (rest := []) hr (by simp [s1, hu]) hx
  exact ⟨_, _, crew_cons t1 t2, by simpa using n2, rfl, rfl, rfl, rfl, j2⟩

end

/-! ### Concrete cases -/

section
attribute [local instance] Ext.sample FloatText.sample Dbg.sample

/-- Five requests, the JSON of each beside it. -/
def sampleFive : List (Json × Message) := samplePool ++ samplePool ++ samplePool.take 1

theorem sampleFive_carries : Spec.Carries (framed sampleFive)
    (([.workspaceBuildTargets (.i32 2), .workspaceReload (.str "a"), .workspaceBuildTargets (.i32 2), .workspaceReload (.str "a"),
      .workspaceBuildTargets (.i32 2)] : List Request).map Message.request) := by
  have : ∀ x ∈ sampleFive, x ∈ samplePool ++ sampleLeave := by
    intro x hx
    rcases List.mem_append.1 hx with hx | hx
    · rcases List.mem_append.1 hx with hx | hx <;> exact List.mem_append_left _ hx
    · exact List.mem_append_left _ (List.mem_of_mem_take hx)
  exact carries_framed fun x hx => samplePool_ok x (this x hx)

/-- Beside C131: the first of the sample requests, and what must hold of the run. -/
example (k : Kind) : ∃ as p, Session.Steps k sampleHandler {} as p ∧ p.io.out = [] ∧ p.io.arrived = framed (sampleFive.take 3) ∧
    p.io.unread = [] ∧ ∃ used heard written, p.io.arrived = used ++ p.io.unread ∧ Spec.Carries used heard ∧
      written <+: Spec.answers sampleHandler heard ∧ written.flatMap write <+: p.io.out ∧
      (Spec.answers sampleHandler heard).length ≤ written.length + 3 := by
  have hc : Spec.Carries (framed (sampleFive.take 3)) [.request (.workspaceBuildTargets (.i32 2)), .request (.workspaceReload (.str "a")),
      .request (.workspaceBuildTargets (.i32 2))] := by
    refine carries_framed fun x hx => samplePool_ok x (List.mem_append_left _ ?_)
    rcases List.mem_append.1 (List.mem_of_mem_take hx) with hx | hx
    · rcases List.mem_append.1 hx with hx | hx <;> exact hx
    · exact List.mem_of_mem_take hx
  obtain ⟨as, p, h1, _, h2, h3, h4⟩ := C131_loop_full (k := k) (process := sampleHandler) (by simp [Spec.Early]) (by simp [Spec.Early]) hc
  exact ⟨as, p, h1, h4, h2, h3, C131_loop h1⟩

/-- Beside C131: three workers hold five requests. -/
example (k : Kind) : ∃ as p, Pool.Steps k (Pool.start {} 3) as p ∧ p.io.out = [] ∧ p.io.arrived = framed sampleFive ∧
    p.io.unread = [] ∧ ∃ used heard written, p.io.arrived = used ++ p.io.unread ∧ Spec.Carries used heard ∧
      written <+: p.io.accepted ∧ written.flatMap write <+: p.io.out ∧
      (Spec.requests heard).length ≤ written.length + 3 + 2 + Spec.shutdowns heard := by
  obtain ⟨as, p, h1, _, h2, h3, h4⟩ := C131_pool_full (k := k) (n := 2) resting_start
    (rs := [.workspaceBuildTargets (.i32 2), .workspaceReload (.str "a"), .workspaceBuildTargets (.i32 2)])
    (a := .workspaceReload (.str "a")) (b := .workspaceBuildTargets (.i32 2)) rfl (by simp) sampleFive_carries
  exact ⟨as, p, h1, h4, by simpa using h2, h3, C131_pool (reachable_start k) rfl rfl (by simp [Spec.requests]) h1⟩

/-- Beside C131: five threads. -/
example (k : Kind) : ∃ as p, Crew.Steps k (fun r ms => ms = [reply r]) { io := {} } as p ∧ p.io.out = [] ∧ p.jobs.length = 5 := by
  obtain ⟨as, p, h1, _, _, _, h2, _, h3⟩ := C131_crew (k := k) (work := fun r ms => ms = [reply r]) resting_start
    (rs := [.workspaceBuildTargets (.i32 2), .workspaceReload (.str "a"), .workspaceBuildTargets (.i32 2),
      .workspaceReload (.str "a"), .workspaceBuildTargets (.i32 2)]) (by simp) (fun r _ => ⟨_, rfl⟩) sampleFive_carries
  exact ⟨as, p, h1, h2, by simpa using congrArg List.length h3⟩

end
end Bsp
