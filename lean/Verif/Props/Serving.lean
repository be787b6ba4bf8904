/-
C119: a server that keeps account of its requests with `Incoming`.
-/
import Verif.Serving
import Verif.Props.Pool
import Verif.Props.ReqQueue

namespace Bsp
open Transport Queue Conn Session

section
variable [Ext]

/-! ### Specification -/

/-- How many of the requests have the id. -/
def Spec.asks (id : RequestId) (ms : List Message) : Nat := ((Spec.requests ms).map Request.id).count id

/-- How many of the responses have the id. -/
def Spec.replies (id : RequestId) (xs : List Response) : Nat := (xs.map fun x => x.id).count id

/-- The response that says that the client has cancelled the request. -/
def Spec.canceled (id : RequestId) : Response := ⟨id, none, some ⟨-32800, "canceled by client", none⟩⟩

/-- Where a response comes from: a job that has ended with it, or the wish of the client. -/
def Spec.From (wish : Message → Option RequestId) (handled : List Message)
    (finished : List (Request × α × Response × Option α)) (x : Response) : Prop :=
  (∃ r d d', (r, d, x, some d') ∈ finished ∧ .request r ∈ handled ∧ x.id = r.id) ∨
  (x = Spec.canceled x.id ∧ ∃ m ∈ handled, (∀ r, m ≠ .request r) ∧ wish m = some x.id)

/-! ### Invariant -/

theorem requests_snoc_request (ms : List Message) (r : Request) :
    Spec.requests (ms ++ [.request r]) = Spec.requests ms ++ [r] := by rw [reqs_append]; rfl

theorem requests_snoc_other (ms : List Message) {m : Message} (h : ∀ r, m ≠ .request r) :
    Spec.requests (ms ++ [m]) = Spec.requests ms := by
  rw [reqs_append]
  cases m with
  | request r => exact absurd rfl (h r)
  | response r => simp [Spec.requests]
  | notification n => simp [Spec.requests]

theorem mem_requests {ms : List Message} {r : Request} : r ∈ Spec.requests ms ↔ .request r ∈ ms := by
  induction ms with
  | nil => simp [Spec.requests]
  | cons m ms ih => cases m <;> simp [Spec.requests, ih]

variable [FloatText]

/-- What holds of the server. -/
structure ServeInv (k : Kind) (wish : Message → Option RequestId) (io : Transport.State) (as : List Pool.Act)
    (s : Serving.State α) (sent : List Response) : Prop where
  reach : Reachable k s.io
  rx : s.io.rxAlive = true
  tx : s.io.txAlive = true
  got : ∃ ds, s.io.delivered = io.delivered ++ ds ∧ (s.handled ++ s.inbox).Perm ds
  accepted : s.io.accepted = io.accepted ++ sent.map .response
  count : ∀ id, Spec.replies id (sent ++ s.outbox) + (s.queue.pending id).toList.length + s.again.count id =
    Spec.asks id s.handled
  twice : ∀ id ∈ s.again, 2 ≤ Spec.asks id s.handled
  pend : ∀ id d, s.queue.pending id = some d → ∃ r, (r, d) ∈ s.jobs ∧ r.id = id
  jobs : (s.jobs.map Prod.fst ++ s.finished.map Prod.fst).Perm (Spec.requests s.handled)
  source : ∀ x ∈ sent ++ s.outbox, Spec.From wish s.handled s.finished x
  data : ((Spec.requests s.handled).map Request.id).Nodup → ∀ r d x d', (r, d, x, some d') ∈ s.finished → d' = d
  fails : Pool.Act.writeFails ∉ as → io.writer ≠ writeError k → s.io.writer ≠ writeError k

omit [FloatText] [Ext] in
theorem replies_append (id : RequestId) (a b : List Response) :
    Spec.replies id (a ++ b) = Spec.replies id a + Spec.replies id b := by
  simp [Spec.replies]

omit [FloatText] in
theorem from_more {wish : Message → Option RequestId} {hs hs' : List Message}
    {fs fs' : List (Request × α × Response × Option α)} {x : Response} (h : Spec.From wish hs fs x)
    (h1 : ∀ m ∈ hs, m ∈ hs') (h2 : ∀ f ∈ fs, f ∈ fs') : Spec.From wish hs' fs' x := by
  rcases h with ⟨r, d, d', h3, h4, h5⟩ | ⟨h3, m, h4, h5⟩
  · exact .inl ⟨r, d, d', h2 _ h3, h1 _ h4, h5⟩
  · exact .inr ⟨h3, m, h1 _ h4, h5⟩

omit [Ext] [FloatText] in
theorem opt (x : Option α) : x = none ∨ ∃ a, x = some a := by cases x <;> simp

omit [Ext] [FloatText] in
theorem nodup_key {β : Type} {f : α → β} {l : List α} (h : (l.map f).Nodup) {a b : α} (ha : a ∈ l) (hb : b ∈ l)
    (he : f a = f b) : a = b := by
  induction l with
  | nil => cases ha
  | cons x l ih =>
    simp only [List.map_cons, List.nodup_cons, List.mem_map, not_exists, not_and] at h
    rcases List.mem_cons.1 ha with rfl | ha' <;> rcases List.mem_cons.1 hb with rfl | hb'
    · rfl
    · exact absurd he.symm (h.1 b hb')
    · exact absurd he (h.1 a ha')
    · exact ih h.2 ha' hb'

omit [FloatText] in
theorem handle_other {wish : Message → Option RequestId} {t : Serving.State α} {m : Message} {d : α}
    (h : ∀ r, m ≠ .request r) : t.handle wish m d =
      match wish m with
      | some id => Serving.State.cancel { t with handled := t.handled ++ [m] } id
      | none => { t with handled := t.handled ++ [m] } := by
  cases m with
  | request r => exact absurd rfl (h r)
  | response r => rfl
  | notification n => rfl

theorem serveInv {k : Kind} {wish : Message → Option RequestId} {io : Transport.State} (hio : Reachable k io)
    (hx : io.rxAlive = true) (ht : io.txAlive = true) {as : List Pool.Act} {s : Serving.State α}
    (h : Serving.Steps k wish { io := io } as s) : ∃ sent, ServeInv k wish io as s sent := by
  induction h with
  | nil =>
    exact ⟨[], hio, hx, ht, ⟨[], by simp, by simp⟩, by simp, fun id => rfl, by simp, by simp [Incoming.new], .refl _,
      by simp, by simp, fun _ h => h⟩
  | @snoc as t a u _ hs ih =>
    obtain ⟨sent, h1, h2, h3, ⟨ds, h4, h5⟩, h6, h7, h8, h9, h10, h11, h12, h13⟩ := ih
    have nf : Pool.Act.writeFails ∉ as ++ [a] → Pool.Act.writeFails ∉ as ∧ a ≠ .writeFails := by
      intro h
      simp only [List.mem_append, List.mem_singleton, not_or] at h
      exact ⟨h.1, fun e => h.2 e.symm⟩
    cases hs with
    | io hs hk =>
      obtain ⟨act', e1, e2⟩ := pool_kind hk
      obtain ⟨i1, i2, i3, i4, i5, i6, i7⟩ := io_same hs e1
      exact ⟨sent, reachable_step h1 hs, i3.trans h2, i4.trans h3, ⟨ds, i1.trans h4, h5⟩, i2.trans h6, h7, h8, h9, h10, h11,
        h12, fun h he hw => h13 (nf h).1 he (i7 (e2 (nf h).2) hw)⟩
    | @recv m io' hs =>
      have hr := reachable_step h1 hs
      cases hs with
      | deliver _ _ _ =>
        refine ⟨sent, hr, h2, h3, ⟨ds ++ [m], by simp [h4], ?_⟩, h6, h7, h8, h9, h10, h11, h12,
          fun h => h13 (nf h).1⟩
        rw [← List.append_assoc]; exact h5.append_right _
    | @handle a b m d hi =>
      have hperm : ((t.handled ++ [m]) ++ (a ++ b)).Perm ds := by
        refine List.Perm.trans ?_ h5
        rw [hi, List.append_assoc]
        refine List.Perm.append_left _ ?_
        exact show (_ :: (a ++ b)).Perm _ from List.perm_middle.symm
      have more : ∀ x ∈ t.handled, x ∈ t.handled ++ [m] := fun x h => List.mem_append_left _ h
      have other : (∀ r, m ≠ .request r) →
          ∃ sent, ServeInv k wish io (as ++ [.worker]) { t.handle wish m d with inbox := a ++ b } sent := by
        intro hno
        have easks : ∀ id, Spec.asks id (t.handled ++ [m]) = Spec.asks id t.handled := by
          intro id; rw [Spec.asks, requests_snoc_other _ hno]; rfl
        rw [handle_other hno]
        cases hw : wish m with
        | none =>
          refine ⟨sent, h1, h2, h3, ⟨ds, h4, hperm⟩, h6, ?_, ?_, h9, ?_, ?_, ?_, fun h => h13 (nf h).1⟩
          · intro id; rw [easks]; exact h7 id
          · intro id hm; rw [easks]; exact h8 id hm
          · rw [requests_snoc_other _ hno]; exact h10
          · exact fun x hx => from_more (h11 x hx) more fun _ h => h
          · rw [requests_snoc_other _ hno]; exact h12
        | some id =>
          refine ⟨sent, h1, h2, h3, ⟨ds, h4, hperm⟩, h6, ?_, ?_, ?_, ?_, ?_, ?_, fun h => h13 (nf h).1⟩
          · intro i
            have := h7 i
            simp only [Serving.State.cancel, Incoming.cancel, Incoming.complete, Table.remove, easks]
            cases hp : t.queue.pending id with
            | none =>
              simp only [Option.toList_none, List.append_nil]
              by_cases hi : i = id
              · subst hi; simpa [hp] using this
              · simpa [hi] using this
            | some d' =>
              simp only [Option.toList_some, ← List.append_assoc, replies_append]
              simp only [replies_append] at this
              by_cases hi : i = id
              · subst hi
                simp [hp, Spec.replies] at this ⊢
                omega
              · have hi' : ¬ id = i := fun e => hi e.symm
                simp [hi, hi', Spec.replies] at this ⊢
                omega
          · intro i hm
            simp only [Serving.State.cancel, easks] at hm ⊢
            exact h8 i hm
          · intro i d' hp
            simp only [Serving.State.cancel, Incoming.cancel, Incoming.complete, Table.remove] at hp ⊢
            have : t.queue.pending i = some d' := by
              cases hq : t.queue.pending id <;> simp only [hq] at hp <;> split at hp <;> first | (cases hp; done) | exact hp
            exact h9 i d' this
          · simp only [Serving.State.cancel, requests_snoc_other _ hno]; exact h10
          · intro x hx
            simp only [Serving.State.cancel, ← List.append_assoc] at hx ⊢
            rcases List.mem_append.1 hx with hx | hx
            · exact from_more (h11 x hx) more fun _ h => h
            · simp only [Incoming.cancel, Incoming.complete, Table.remove] at hx
              cases hq : t.queue.pending id with
              | none => simp [hq] at hx
              | some d' =>
                simp [hq] at hx
                subst hx
                exact .inr ⟨rfl, m, by simp, hno, hw⟩
          · simp only [Serving.State.cancel, requests_snoc_other _ hno]; exact h12
      cases m with
      | response r => exact other (by simp)
      | notification n => exact other (by simp)
      | request r =>
        have hcount : ∀ id, Spec.asks id (t.handled ++ [.request r]) =
            Spec.asks id t.handled + if r.id = id then 1 else 0 := by
          intro id
          simp only [Spec.asks, requests_snoc_request, List.map_append, List.map_cons, List.map_nil, List.count_append,
            List.count_cons, List.count_nil, beq_iff_eq, Nat.zero_add]
        refine ⟨sent, h1, h2, h3, ⟨ds, h4, hperm⟩, h6, ?_, ?_, ?_, ?_, ?_, ?_, fun h => h13 (nf h).1⟩
        · intro id
          have := h7 id
          simp only [Serving.State.handle, Serving.State.begin, Incoming.register, Table.insert, hcount]
          by_cases hid : id = r.id
          · subst hid
            cases hp : t.queue.pending r.id with
            | none => simp [hp] at this ⊢; omega
            | some d' => simp [hp] at this ⊢; omega
          · have hid' : ¬ r.id = id := fun e => hid e.symm
            cases hp : t.queue.pending r.id with
            | none => simp [hid, hid'] at this ⊢; omega
            | some d' => simp [hid, hid'] at this ⊢; omega
        · intro id hm
          simp only [Serving.State.handle, Serving.State.begin, hcount] at hm ⊢
          cases hp : t.queue.pending r.id with
          | none => simp [hp] at hm; have := h8 id hm; omega
          | some d' =>
            simp [hp] at hm
            rcases hm with hm | hm
            · have := h8 id hm; omega
            · subst hm
              have := h7 r.id
              simp [hp] at this ⊢
              omega
        · intro id d' hp
          simp only [Serving.State.handle, Serving.State.begin, Incoming.register, Table.insert] at hp ⊢
          by_cases hid : id = r.id
          · simp [hid] at hp; exact ⟨r, by simp [hp], hid.symm⟩
          · simp [hid] at hp
            obtain ⟨q, hq, hq1⟩ := h9 id d' hp
            exact ⟨q, List.mem_append_left _ hq, hq1⟩
        · simp only [Serving.State.handle, Serving.State.begin, requests_snoc_request, List.map_append, List.map_cons,
            List.map_nil] at h10 ⊢
          refine List.Perm.trans ?_ (h10.append_right [r])
          rw [List.append_assoc, List.append_assoc]
          exact List.Perm.append_left _ List.perm_append_comm
        · exact fun x hx => from_more (h11 x hx) more fun _ h => h
        · intro hd
          refine h12 ?_
          simp only [Serving.State.handle, Serving.State.begin, requests_snoc_request, List.map_append,
            List.nodup_append] at hd
          exact hd.1
    | @finish a b r d x hj hid =>
      have hmem : (r, d) ∈ t.jobs := by rw [hj]; simp
      have hreq : .request r ∈ t.handled := mem_requests.1 (h10.mem_iff.1 (by
        exact List.mem_append_left _ (List.mem_map.2 ⟨_, hmem, rfl⟩)))
      refine ⟨sent, h1, h2, h3, ⟨ds, h4, h5⟩, h6, ?_, h8, ?_, ?_, ?_, ?_, fun h => h13 (nf h).1⟩
      · intro i
        have := h7 i
        simp only [Serving.State.finish, Incoming.complete, Table.remove]
        rcases opt (t.queue.pending r.id) with hp | ⟨d', hp⟩
        · simp only [hp, Option.isSome_none, Bool.false_eq_true, if_false]
          by_cases hi : i = r.id
          · subst hi; simpa [hp] using this
          · simpa [hi] using this
        · simp only [hp, Option.isSome_some, if_true, ← List.append_assoc, replies_append]
          simp only [replies_append] at this
          by_cases hi : i = r.id
          · subst hi
            simp [hp, Spec.replies, hid] at this ⊢
            omega
          · have hi' : ¬ r.id = i := fun e => hi e.symm
            simp [hi, hi', Spec.replies, hid] at this ⊢
            omega
      · intro i d' hp
        simp only [Serving.State.finish, Incoming.complete, Table.remove] at hp ⊢
        by_cases hi : i = r.id
        · simp [hi] at hp
        · simp only [hi, if_false] at hp
          obtain ⟨q, hq, hq1⟩ := h9 i d' hp
          rw [hj] at hq
          refine ⟨q, ?_, hq1⟩
          rcases List.mem_append.1 hq with hq | hq
          · exact List.mem_append_left _ hq
          · rcases List.mem_cons.1 hq with hq | hq
            · cases hq; exact absurd hq1.symm hi
            · exact List.mem_append_right _ hq
      · simp only [Serving.State.finish]
        refine List.Perm.trans ?_ h10
        rw [hj]
        simp only [List.map_append, List.map_cons, List.map_nil, List.append_assoc, List.cons_append]
        refine List.Perm.append_left _ ?_
        rw [← List.append_assoc]
        exact List.perm_append_singleton ..
      · intro y hy
        simp only [Serving.State.finish, Incoming.complete, Table.remove] at hy ⊢
        have old : y ∈ sent ++ t.outbox → Spec.From wish t.handled (t.finished ++ [(r, d, x, t.queue.pending r.id)]) y :=
          fun h => from_more (h11 y h) (fun _ h => h) fun _ h => List.mem_append_left _ h
        cases hp : t.queue.pending r.id with
        | none =>
          simp only [hp, Option.isSome_none, Bool.false_eq_true, if_false] at hy old
          exact old hy
        | some d' =>
          simp only [hp, Option.isSome_some, if_true, ← List.append_assoc] at hy old
          rcases List.mem_append.1 hy with hy | hy
          · exact old hy
          · simp only [List.mem_singleton] at hy
            subst hy
            exact .inl ⟨r, d, d', by simp, hreq, hid⟩
      · intro hd r' d1 x' d' hm
        simp only [Serving.State.finish, Incoming.complete, Table.remove] at hd hm
        rcases List.mem_append.1 hm with hm | hm
        · exact h12 hd r' d1 x' d' hm
        · simp only [List.mem_singleton, Prod.mk.injEq] at hm
          obtain ⟨rfl, rfl, rfl, hp⟩ := hm
          obtain ⟨q, hq, hq1⟩ := h9 _ _ hp.symm
          have hn : (t.jobs.map fun y => y.1.id).Nodup := by
            have := (h10.map Request.id).nodup_iff.2 hd
            simp only [List.map_append, List.map_map] at this
            exact (List.nodup_append.1 this).1
          have := nodup_key hn hq hmem hq1
          cases this; rfl
    | @send a b x io' ho hs =>
      have hr := reachable_step h1 hs
      cases hs with
      | accept _ _ _ =>
        have hp : ((sent ++ [x]) ++ (a ++ b)).Perm (sent ++ t.outbox) := by
          rw [ho, List.append_assoc]
          refine List.Perm.append_left _ ?_
          exact show (_ :: (a ++ b)).Perm _ from List.perm_middle.symm
        refine ⟨sent ++ [x], hr, h2, h3, ⟨ds, h4, h5⟩, by simp [h6], ?_, h8, h9, h10, ?_, h12, ?_⟩
        · intro id
          rw [← h7 id]
          simp only [Spec.replies, (hp.map _).count_eq]
        · exact fun y hy => h11 y (hp.mem_iff.1 hy)
        · intro _ _ h; cases k <;> cases h

theorem requests_filterMap (ms : List Message) :
    Spec.requests ms = ms.filterMap (fun | .request r => some r | _ => none) := by
  induction ms with
  | nil => rfl
  | cons m ms ih => cases m <;> simp [Spec.requests, ih]

theorem requests_perm {a b : List Message} (h : a.Perm b) : (Spec.requests a).Perm (Spec.requests b) := by
  rw [requests_filterMap, requests_filterMap]
  exact h.filterMap _

theorem asks_perm {a b : List Message} (h : a.Perm b) (id : RequestId) : Spec.asks id a = Spec.asks id b :=
  ((requests_perm h).map _).count_eq id

theorem asks_append (id : RequestId) (a b : List Message) : Spec.asks id (a ++ b) = Spec.asks id a + Spec.asks id b := by
  simp [Spec.asks, reqs_append]

/-- C119: whatever the order of all steps, and even if writes fail: under every id the server has sent no more responses
than it has received requests, less those that came while the id was pending; and each response is the outcome of a job or
the answer to a wish to cancel. -/
theorem C119_once {k : Kind} {wish : Message → Option RequestId} {io : Transport.State} (hio : Reachable k io)
    (hx : io.rxAlive = true) (ht : io.txAlive = true) {as : List Pool.Act} {s : Serving.State α}
    (h : Serving.Steps k wish { io := io } as s) :
    ∃ ds sent, s.io.delivered = io.delivered ++ ds ∧ s.io.accepted = io.accepted ++ sent.map .response ∧
      (∀ id, Spec.replies id sent + s.again.count id ≤ Spec.asks id ds) ∧
      ∀ x ∈ sent, Spec.From wish ds s.finished x := by
  obtain ⟨sent, hi⟩ := serveInv hio hx ht h
  obtain ⟨ds, h1, h2⟩ := hi.got
  refine ⟨ds, sent, h1, hi.accepted, ?_, ?_⟩
  · intro id
    have h3 := hi.count id
    rw [replies_append] at h3
    rw [← asks_perm h2, asks_append]
    omega
  · intro x hx
    exact from_more (hi.source x (List.mem_append_left _ hx)) (fun m hm => h2.mem_iff.1 (List.mem_append_left _ hm))
      fun _ h => h

/-- C119: when no write fails and nothing more can happen by itself, everything received has been handled, all jobs have
ended, all responses have been written; under every id there are as many responses as requests, less those that came while
the id was pending; and the server waits for input, of which it has received all that has come in full, or the input is
over. -/
theorem C119_rest {k : Kind} {wish : Message → Option RequestId} {io : Transport.State} (hio : Reachable k io)
    (hx : io.rxAlive = true) (ht : io.txAlive = true) (hw : io.writer ≠ writeError k) {as : List Pool.Act}
    {s : Serving.State α} [Inhabited α] (h : Serving.Steps k wish { io := io } as s) (ha : Pool.Act.writeFails ∉ as)
    (hq : Serving.Quiet k wish s) :
    ∃ ds sent, s.io.delivered = io.delivered ++ ds ∧ s.io.accepted = io.accepted ++ sent.map .response ∧
      s.handled.Perm ds ∧ (s.finished.map Prod.fst).Perm (Spec.requests ds) ∧
      (∀ id, Spec.replies id sent + s.again.count id = Spec.asks id ds) ∧
      s.io.out = s.io.accepted.flatMap Frame.write ∧
      ((s.io.reader = .reading ∧ s.io.inEnd = none ∧
          ∀ bs ms rest, s.io.arrived = bs ++ rest → Spec.Carries bs ms → ms <+: s.io.delivered) ∨
        s.io.reader.ended = true ∧ Over s.io) := by
  obtain ⟨sent, hi⟩ := serveInv hio hx ht h
  obtain ⟨ds, h1, h2⟩ := hi.got
  have no : ∀ {a t}, a ≠ .peer → ¬ Serving.Step k wish s a t := fun h1 h2 => h1 (hq _ _ h2)
  have hin : s.inbox = [] := by
    cases hb : s.inbox with
    | nil => rfl
    | cons m l => exact (no (by simp) (.handle (a := []) (d := default) hb)).elim
  have hjobs : s.jobs = [] := by
    cases hb : s.jobs with
    | nil => rfl
    | cons m l => exact (no (by simp) (.finish (a := []) (r := m.1) (d := m.2) (x := ⟨m.1.id, none, none⟩) hb rfl)).elim
  have hwr := hi.fails ha hw
  have hwi := writeInv hi.reach
  have hidle : s.io.writer = .idle := by
    cases hwr' : s.io.writer with
    | idle => rfl
    | done => have := (C54_drained hi.reach hwr').1; rw [hi.tx] at this; cases this
    | writing rest =>
      cases rest with
      | nil => exact (no (by simp) (.io (.written _ hwr') rfl)).elim
      | cons y rest => exact (no (by simp) (.io (.write _ [y] rest hwr' (by simp)) rfl)).elim
    | failed => simp only [WriteInv, hwr'] at hwi; rw [hwr', hwi.1] at hwr; exact absurd rfl hwr
    | panicked => simp only [WriteInv, hwr'] at hwi; rw [hwr', hwi.1] at hwr; exact absurd rfl hwr
  have hout : s.outbox = [] := by
    cases hb : s.outbox with
    | nil => rfl
    | cons m l => exact (no (by simp) (.send (a := []) hb (.accept _ _ hidle hi.tx))).elim
  rw [hin, List.append_nil] at h2
  refine ⟨ds, sent, h1, hi.accepted, h2, ?_, ?_, ?_, ?_⟩
  · have := hi.jobs
    rw [hjobs] at this
    exact this.trans (requests_perm h2)
  · intro id
    have h3 := hi.count id
    have h4 : s.queue.pending id = none := by
      cases hp : s.queue.pending id with
      | none => rfl
      | some d => obtain ⟨r, h5, _⟩ := hi.pend id d hp; rw [hjobs] at h5; cases h5
    rw [hout, List.append_nil, h4] at h3
    rw [← asks_perm h2, ← h3]
    simp
  · simp only [WriteInv, hidle] at hwi; exact hwi
  · cases hrd : s.io.reader with
    | sending m => exact (no (by simp) (.recv (.deliver _ m hrd hi.rx))).elim
    | reading =>
      left
      have hno : ¬ ∃ s', Transport.Step k s.io .read s' := fun ⟨s', h1⟩ => no (by simp) (.io h1 rfl)
      have hie : s.io.inEnd = none := by
        cases he : s.io.inEnd with
        | none => rfl
        | some b =>
          exact absurd ⟨_, .read _ (Frame.readMsg (⟨s.io.unread, b⟩ : Frame.Flat)) hrd (by simp [Settled, he])⟩ hno
      refine ⟨rfl, hie, ?_⟩
      intro bs ms rest hb hc
      obtain ⟨⟨used, ps, hu, hp, hc'⟩, _, _⟩ := (readInv hi.reach).1
      simp only [Spec.Pending, hrd] at hp
      subst hp
      rw [List.append_nil] at hc'
      have e1 := readAll_carries hc rest false
      rw [← hb, hu, readAll_carries hc', nothing_whole hrd hno] at e1
      simp only [List.append_nil, Prod.mk.injEq] at e1
      rw [e1.1]
      exact List.prefix_append _ _
    | _ => exact .inr ⟨rfl, over_closed hi.reach (by rw [hrd]; rfl) hi.rx⟩

/-- C119: if moreover no two requests received have the same id, every request has been answered once, and every job whose
outcome has been sent has got back from the queue the data registered for its request. -/
theorem C119_distinct {k : Kind} {wish : Message → Option RequestId} {io : Transport.State} (hio : Reachable k io)
    (hx : io.rxAlive = true) (ht : io.txAlive = true) (hw : io.writer ≠ writeError k) {as : List Pool.Act}
    {s : Serving.State α} [Inhabited α] (h : Serving.Steps k wish { io := io } as s) (ha : Pool.Act.writeFails ∉ as)
    (hq : Serving.Quiet k wish s) (hd : ((Spec.requests (s.io.delivered.drop io.delivered.length)).map Request.id).Nodup) :
    ∃ (ds : List Message) (sent : List Response), s.io.delivered = io.delivered ++ ds ∧
      s.io.accepted = io.accepted ++ sent.map .response ∧
      (sent.map fun x => x.id).Perm ((Spec.requests ds).map Request.id) ∧
      (∀ x ∈ sent, Spec.From wish ds s.finished x) ∧
      ∀ r d x d', (r, d, x, some d') ∈ s.finished → d' = d := by
  obtain ⟨sent, hi⟩ := serveInv hio hx ht h
  obtain ⟨ds, sent', h1, h2, h3, _, h4, _⟩ := C119_rest hio hx ht hw h ha hq
  have e : sent' = sent := by
    have := hi.accepted
    rw [h2] at this
    have := List.append_cancel_left this
    exact List.map_inj_right (by simp) |>.1 this
  subst e
  rw [h1, List.drop_left' rfl] at hd
  have hd' := (((requests_perm h3).map Request.id).nodup_iff).2 hd
  have hag : s.again = [] := by
    cases hg : s.again with
    | nil => rfl
    | cons id l =>
      have h5 := hi.twice id (by rw [hg]; simp)
      have h6 := List.nodup_iff_count.1 hd' id
      simp only [Spec.asks] at h5
      omega
  refine ⟨ds, sent', h1, h2, ?_, ?_, hi.data hd'⟩
  · refine List.perm_iff_count.2 fun id => ?_
    have := h4 id
    rw [hag] at this
    simpa [Spec.replies, Spec.asks] using this
  · intro x hx
    exact from_more (hi.source x (List.mem_append_left _ hx)) (fun m hm => h3.mem_iff.1 hm) fun _ h => h

/-! ### Every run comes to rest -/

/-- What is left to be done, in two parts: with what has been read and received; with what is to be written. -/
def serveWork (s : Serving.State α) : Nat × Nat :=
  (20 * s.io.unread.length + (match s.io.reader with | .reading => 4 | .sending _ => 10 | _ => 0) +
    4 * s.inbox.length + 2 * s.jobs.length + s.outbox.length,
   workLeft s.io.writer)

theorem serveWork_decreases {k : Kind} {wish : Message → Option RequestId} {s t : Serving.State α} {a : Pool.Act}
    (h : Serving.Step k wish s a t) (ha : a ≠ .peer) : Prod.Lex (· < ·) (· < ·) (serveWork t) (serveWork s) := by
  cases h with
  | io h2 h3 =>
    cases h2 with
    | arrive bs _ => simp [Pool.kindOf] at h3; exact absurd h3.symm ha
    | hangUp b _ => simp [Pool.kindOf] at h3; exact absurd h3.symm ha
    | read r hr hs =>
      left
      cases r with
      | item m rest =>
        obtain ⟨f, cs, j, hf, _, _, _, hu⟩ := settled_item hs
        have := frame_nonempty hf
        simp only [afterRead, hr, hu, List.length_append]
        omega
      | _ => cases k <;> simp only [afterRead, readError, hr] <;> omega
    | undeliverable m hr _ => left; simp only [hr]; omega
    | write a b hw hne =>
      have : 0 < a.length := by cases a <;> simp_all
      refine (Prod.lex_def).2 (.inr ⟨rfl, ?_⟩)
      simp only [serveWork, workLeft, hw, List.length_append]
      omega
    | written hw =>
      refine (Prod.lex_def).2 (.inr ⟨rfl, ?_⟩)
      simp [serveWork, workLeft, hw]
    | writeFails b hw =>
      refine (Prod.lex_def).2 (.inr ⟨rfl, ?_⟩)
      cases k <;> simp [serveWork, workLeft, hw, writeError]
    | close hw _ =>
      refine (Prod.lex_def).2 (.inr ⟨rfl, ?_⟩)
      simp [serveWork, workLeft, hw]
    | _ => simp [Pool.kindOf] at h3
  | recv hs =>
    cases hs with
    | deliver _ hr _ =>
      left
      simp only [hr, afterSend, List.length_append, List.length_cons, List.length_nil]
      split
      · omega
      · rename_i he
        split at he <;> cases he
      · omega
  | @handle a b m d hi =>
    left
    have other : (∀ r, m ≠ .request r) →
        (serveWork { s.handle wish m d with inbox := a ++ b }).1 < (serveWork s).1 := by
      intro hno
      rw [handle_other hno]
      cases wish m with
      | none => simp only [serveWork, hi, List.length_append, List.length_cons]; omega
      | some id =>
        have : ∀ x : Option Response, x.toList.length ≤ 1 := by intro x; cases x <;> simp
        have := this (s.queue.cancel id).1
        simp only [serveWork, hi, Serving.State.cancel, List.length_append, List.length_cons]; omega
    cases m with
    | request r =>
      simp only [hi, Serving.State.handle, Serving.State.begin, List.length_append, List.length_cons,
        List.length_nil]
      omega
    | response r => exact other (by simp)
    | notification n => exact other (by simp)
  | @finish a b r d x hj _ =>
    left
    simp only [hj, Serving.State.finish, List.length_append, List.length_cons]
    have : ∀ y : Bool, (if y then s.outbox ++ [x] else s.outbox).length ≤ s.outbox.length + 1 := by
      intro y; cases y <;> simp
    have := this (s.queue.complete r.id).1.isSome
    omega
  | send ho hs =>
    left
    cases hs with
    | accept _ _ _ => simp only [ho, List.length_append, List.length_cons]; omega

/-- C119: there is no infinite run without input. -/
theorem C119_terminates (k : Kind) (wish : Message → Option RequestId) :
    WellFounded fun t s : Serving.State α => ∃ a, a ≠ .peer ∧ Serving.Step k wish s a t :=
  Subrelation.wf (fun ⟨_, ha, h⟩ => serveWork_decreases h ha)
    (InvImage.wf serveWork (Prod.lex ⟨_, Nat.lt_wfRel.wf⟩ ⟨_, Nat.lt_wfRel.wf⟩).wf)

theorem serving_cons {k : Kind} {wish : Message → Option RequestId} {s t u : Serving.State α} {a : Pool.Act}
    {as : List Pool.Act} (h1 : Serving.Step k wish s a t) (h2 : Serving.Steps k wish t as u) :
    Serving.Steps k wish s (a :: as) u := by
  induction h2 with
  | nil => exact Serving.Steps.snoc (.nil _) h1
  | snoc _ h4 ih => exact Serving.Steps.snoc ih h4

theorem serving_append {k : Kind} {wish : Message → Option RequestId} {s t u : Serving.State α} {as bs : List Pool.Act}
    (h1 : Serving.Steps k wish s as t) (h2 : Serving.Steps k wish t bs u) : Serving.Steps k wish s (as ++ bs) u := by
  induction h2 with
  | nil => simpa using h1
  | snoc _ h4 ih => rw [← List.append_assoc]; exact .snoc ih h4

/-- C119: from wherever it is, the server can come to rest by itself: without input and without a failing write. -/
theorem C119_settles (k : Kind) (wish : Message → Option RequestId) (s : Serving.State α) :
    ∃ as t, Serving.Steps k wish s as t ∧ Serving.Quiet k wish t ∧ ∀ a ∈ as, a ≠ .peer ∧ a ≠ .writeFails := by
  refine (C119_terminates k wish).induction (C := fun s => ∃ as t, Serving.Steps k wish s as t ∧
    Serving.Quiet k wish t ∧ ∀ a ∈ as, a ≠ .peer ∧ a ≠ .writeFails) s ?_
  intro s ih
  by_cases hq : Serving.Quiet k wish s
  · exact ⟨[], s, .nil s, hq, by simp⟩
  have : ∃ a t, Serving.Step k wish s a t ∧ a ≠ .peer ∧ a ≠ .writeFails := by
    simp only [Serving.Quiet, Classical.not_forall] at hq
    obtain ⟨a, t, h1, h2⟩ := hq
    by_cases ha : a = .writeFails
    · subst ha
      cases h1 with
      | io hs hk =>
        cases hs with
        | writeFails b hw =>
          cases b with
          | nil => exact ⟨_, _, .io (.written _ hw) rfl, by simp, by simp⟩
          | cons y b => exact ⟨_, _, .io (.write _ [y] b hw (by simp)) rfl, by simp, by simp⟩
        | _ => simp [Pool.kindOf] at hk
    · exact ⟨a, t, h1, h2, ha⟩
  obtain ⟨a, t, h1, h2⟩ := this
  obtain ⟨as, r, h3, h4, h5⟩ := ih t ⟨a, h2.1, h1⟩
  refine ⟨a :: as, r, serving_cons h1 h3, h4, ?_⟩
  intro b hb
  rcases List.mem_cons.1 hb with rfl | hb
  · exact h2
  · exact h5 b hb

/-! ### Ids used twice -/

/-- The messages carried by what has come are read and received, one after the other. -/
theorem serving_receives {k : Kind} {wish : Message → Option RequestId} {bs : Bytes} {ms : List Message}
    (hc : Spec.Carries bs ms) : .notification .exit ∉ ms → ∀ (s : Serving.State α) (rest : Bytes),
    s.io.reader = .reading → s.io.rxAlive = true → s.io.unread = bs ++ rest →
    ∃ as, Serving.Steps k wish s as { s with
        io := { s.io with unread := rest, delivered := s.io.delivered ++ ms }, inbox := s.inbox ++ ms } ∧
      ∀ a ∈ as, a = .thread ∨ a = .worker := by
  induction hc with
  | nil =>
    intro _ s rest hr hx hu
    refine ⟨[], ?_, by simp⟩
    rw [List.nil_append] at hu
    subst hu
    simpa using Serving.Steps.nil s
  | @snoc bs ms f cs j m _ hf hl hj hd ih =>
    intro he s rest hr hx hu
    simp only [List.mem_append, List.mem_singleton, not_or] at he
    obtain ⟨as, h1, h2⟩ := ih he.1 s (f ++ rest) hr hx (by rw [hu, List.append_assoc])
    let io1 : Transport.State := { s.io with unread := f ++ rest, delivered := s.io.delivered ++ ms }
    have h3 : Transport.Step k io1 .read { io1 with reader := .sending m, unread := rest } := by
      obtain ⟨⟨s', h3⟩, h4⟩ := C51_progress (k := k) (s := io1) hr rfl hf hl hj hd
      rwa [h4 s' h3] at h3
    have h4 := Transport.Step.deliver (k := k) { io1 with reader := .sending m, unread := rest } m rfl hx
    have e : afterSend m = s.io.reader := by
      rw [hr]
      simp only [afterSend]
      rw [if_neg fun h => he.2 (isExit_iff.1 h).symm]
    rw [e] at h4
    have h5 := Serving.Steps.snoc (Serving.Steps.snoc h1 (.io h3 rfl)) (.recv h4)
    refine ⟨(as ++ [.thread]) ++ [.worker], by simpa [io1] using h5, ?_⟩
    intro a ha
    simp only [List.mem_append, List.mem_singleton] at ha
    rcases ha with (ha | ha) | ha
    · exact h2 a ha
    · exact .inl ha
    · exact .inr ha

/-- What is to be sent is sent and written, one after the other. -/
theorem serving_sends {k : Kind} {wish : Message → Option RequestId} (xs : List Response) : ∀ s : Serving.State α,
    s.outbox = xs → s.io.writer = .idle → s.io.txAlive = true →
    ∃ as, Serving.Steps k wish s as { s with
        io := { s.io with accepted := s.io.accepted ++ xs.map .response,
                          out := s.io.out ++ (xs.map Message.response).flatMap Frame.write }, outbox := [] } ∧
      ∀ a ∈ as, a = .thread ∨ a = .worker := by
  induction xs with
  | nil =>
    intro s ho _ _
    refine ⟨[], ?_, by simp⟩
    have := Serving.Steps.nil (k := k) (wish := wish) s
    obtain ⟨io, _, _, _, outbox, _, _, _⟩ := s
    simp only at ho
    subst ho
    simpa using this
  | cons x xs ih =>
    intro s ho hw ht
    have h1 : Serving.Step k wish s .worker { s with
        io := { s.io with writer := .writing (Frame.write (.response x)), accepted := s.io.accepted ++ [.response x] }
        outbox := xs } := Serving.Step.send (a := []) (b := xs) ho (.accept _ _ hw ht)
    have h2 : ∃ as, Serving.Steps k wish { s with
          io := { s.io with writer := .writing (Frame.write (.response x)), accepted := s.io.accepted ++ [.response x] }
          outbox := xs } as { s with
          io := { s.io with accepted := s.io.accepted ++ [.response x], out := s.io.out ++ Frame.write (.response x) }
          outbox := xs } ∧ ∀ a ∈ as, a = .thread ∨ a = .worker := by
      generalize hb : Frame.write (.response x) = b
      cases b with
      | nil =>
        refine ⟨[.thread], serving_cons (.io (.written _ rfl) rfl) ?_, ?_⟩
        · have := Serving.Steps.nil (k := k) (wish := wish) { s with
            io := { s.io with accepted := s.io.accepted ++ [.response x] }, outbox := xs }
          simpa [← hw] using this
        · simp
      | cons y b =>
        refine ⟨[.thread, .thread], serving_cons (.io (.write _ (y :: b) [] (by simp) (by simp)) rfl)
          (serving_cons (.io (.written _ rfl) rfl) ?_), ?_⟩
        · have := Serving.Steps.nil (k := k) (wish := wish) { s with
            io := { s.io with accepted := s.io.accepted ++ [.response x], out := s.io.out ++ y :: b }, outbox := xs }
          simpa [← hw] using this
        · simp
    obtain ⟨as, h2, h3⟩ := h2
    obtain ⟨as', h4, h5⟩ := ih { s with
      io := { s.io with accepted := s.io.accepted ++ [.response x], out := s.io.out ++ Frame.write (.response x) }
      outbox := xs } rfl hw ht
    refine ⟨_, serving_cons h1 (serving_append h2 (by simpa using h4)), ?_⟩
    intro a ha
    simp only [List.mem_cons, List.mem_append] at ha
    rcases ha with ha | ha | ha
    · exact .inr ha
    · exact h3 a ha
    · exact h5 a ha

/-- A server with nothing to do, on a connection without input. -/
theorem serving_quiet {k : Kind} {wish : Message → Option RequestId} {s : Serving.State α} (hio : Spec.Resting s.io)
    (h1 : s.inbox = []) (h2 : s.jobs = []) (h3 : s.outbox = []) : Serving.Quiet k wish s := by
  obtain ⟨hr, hu, hi, hx, hw, ht⟩ := hio
  intro a q h
  cases h with
  | io h2 h3 =>
    cases h2 with
    | arrive _ _ => simp [Pool.kindOf] at h3; exact h3.symm
    | hangUp _ _ => simp [Pool.kindOf] at h3; exact h3.symm
    | read r h4 h5 => exact (no_read (k := k) hu hi (.read _ r h4 h5)).elim
    | undeliverable m h4 _ => rw [hr] at h4; cases h4
    | write _ _ h4 _ => rw [hw] at h4; cases h4
    | written h4 => rw [hw] at h4; cases h4
    | writeFails _ h4 => rw [hw] at h4; cases h4
    | close _ h4 => rw [ht] at h4; cases h4
    | _ => simp [Pool.kindOf] at h3
  | recv h3 => cases h3 with | deliver _ h4 => rw [hr] at h4; cases h4
  | handle h4 => rw [h1] at h4; simp at h4
  | finish h4 => rw [h2] at h4; simp at h4
  | send h4 => rw [h3] at h4; simp at h4

/-- Messages come, are received, are handled and the jobs end in some way; then what is to be sent is sent. -/
theorem serving_run {k : Kind} {wish : Message → Option RequestId} {io : Transport.State} (hio : Spec.Resting io)
    {bs : Bytes} {ms : List Message} (hc : Spec.Carries bs ms) (he : .notification .exit ∉ ms)
    {as : List Pool.Act} {s : Serving.State α}
    (h : Serving.Steps k wish { io := { io with arrived := io.arrived ++ bs, delivered := io.delivered ++ ms }, inbox := ms }
      as s)
    (ha : ∀ a ∈ as, a = .worker) (h0 : s.io = { io with arrived := io.arrived ++ bs, delivered := io.delivered ++ ms })
    (h1 : s.inbox = []) (h2 : s.jobs = []) :
    ∃ as t, Serving.Steps k wish { io := io } as t ∧ Pool.Act.writeFails ∉ as ∧ Serving.Quiet k wish t ∧
      t.io.arrived = io.arrived ++ bs ∧ t.io.delivered = io.delivered ++ ms ∧
      t.io.accepted = io.accepted ++ s.outbox.map .response ∧ t.finished = s.finished ∧ t.again = s.again := by
  obtain ⟨hr, hu, hi, hx, hw, ht⟩ := hio
  have t1 : Serving.Step k wish ({ io := io } : Serving.State α) .peer
      { io := { io with arrived := io.arrived ++ bs, unread := bs } } := by
    have := Serving.Step.io (k := k) (wish := wish) (s := ({ io := io } : Serving.State α)) (.arrive _ bs hi) rfl
    simpa [hu] using this
  obtain ⟨as2, t2, n2⟩ := serving_receives (k := k) (wish := wish) hc he
    ({ io := { io with arrived := io.arrived ++ bs, unread := bs } } : Serving.State α) [] hr hx (by simp)
  obtain ⟨as4, t4, n4⟩ := serving_sends (k := k) (wish := wish) s.outbox s rfl (by rw [h0]; exact hw) (by rw [h0]; exact ht)
  rw [← hu] at t2
  refine ⟨_, _, serving_cons t1 (serving_append (by simpa [hu] using t2) (serving_append h t4)), ?_, ?_, ?_⟩
  · intro hm
    simp only [List.mem_cons, List.mem_append, reduceCtorEq, false_or] at hm
    rcases hm with hm | hm | hm
    · rcases n2 _ hm with h | h <;> cases h
    · cases ha _ hm
    · rcases n4 _ hm with h | h <;> cases h
  · refine serving_quiet ?_ h1 h2 rfl
    rw [h0]
    exact ⟨hr, hu, hi, hx, hw, ht⟩
  · simp [h0]

/-- C119: of two requests with the same id, of which the second comes while the first is pending, one is not answered,
although no write fails and nothing is cancelled. -/
theorem C119_reused {k : Kind} {wish : Message → Option RequestId} {io : Transport.State} (hio : Spec.Resting io)
    {r1 r2 : Request} (hid : r2.id = r1.id) {bs : Bytes} (hc : Spec.Carries bs [.request r1, .request r2]) (d1 d2 : α)
    {x1 x2 : Response} (hx1 : x1.id = r1.id) (hx2 : x2.id = r2.id) :
    ∃ as s, Serving.Steps k wish { io := io } as s ∧ Pool.Act.writeFails ∉ as ∧ Serving.Quiet k wish s ∧
      s.io.arrived = io.arrived ++ bs ∧ s.io.delivered = io.delivered ++ [.request r1, .request r2] ∧
      s.finished = [(r1, d1, x1, some d2), (r2, d2, x2, none)] ∧ s.again = [r1.id] ∧
      s.io.accepted = io.accepted ++ [.response x1] := by
  have t := Serving.Steps.nil (k := k) (wish := wish) (show Serving.State α from
    { io := { io with arrived := io.arrived ++ bs, delivered := io.delivered ++ [.request r1, .request r2] }
      inbox := [.request r1, .request r2] })
  have t := t.snoc (.handle (a := []) (d := d1) rfl)
  have t := t.snoc (.handle (a := []) (m := .request r2) (d := d2) rfl)
  have t := t.snoc (.finish (a := []) (r := r1) (d := d1) (b := [(r2, d2)]) rfl hx1)
  have t := t.snoc (.finish (a := []) (r := r2) (d := d2) (b := []) rfl hx2)
  obtain ⟨as, s, h1, h2, h3, h4, h5, h6, h7, h8⟩ := serving_run hio hc (by simp) t (by simp) rfl rfl rfl
  refine ⟨as, s, h1, h2, h3, h4, h5, ?_, ?_, ?_⟩
  · rw [h7]
    simp [Serving.State.handle, Serving.State.begin, Serving.State.finish, Incoming.register, Incoming.complete,
      Table.insert, Table.remove, hid]
  · rw [h8]
    simp [Serving.State.handle, Serving.State.begin, Serving.State.finish, Incoming.register, Incoming.complete,
      Table.insert, Table.remove, hid, Incoming.new]
  · rw [h6]
    simp [Serving.State.handle, Serving.State.begin, Serving.State.finish, Incoming.register, Incoming.complete,
      Table.insert, Table.remove, hid]

/-- C119: and if the second of them comes after the first has been cancelled, but while the job for the first still runs,
the outcome of that job is sent as the answer to the second; its own is not sent. -/
theorem C119_stale {k : Kind} {wish : Message → Option RequestId} {io : Transport.State} (hio : Spec.Resting io)
    {r1 r2 : Request} {m : Message} (hid : r2.id = r1.id) (hm : ∀ r, m ≠ .request r) (hm' : m ≠ .notification .exit)
    (hwish : wish m = some r1.id) {bs : Bytes} (hc : Spec.Carries bs [.request r1, m, .request r2]) (d1 d2 : α)
    {x1 x2 : Response} (hx1 : x1.id = r1.id) (hx2 : x2.id = r2.id) :
    ∃ as s, Serving.Steps k wish { io := io } as s ∧ Pool.Act.writeFails ∉ as ∧ Serving.Quiet k wish s ∧
      s.io.arrived = io.arrived ++ bs ∧ s.io.delivered = io.delivered ++ [.request r1, m, .request r2] ∧
      s.finished = [(r1, d1, x1, some d2), (r2, d2, x2, none)] ∧ s.again = [] ∧
      s.io.accepted = io.accepted ++ [.response (Spec.canceled r1.id), .response x1] := by
  have t := Serving.Steps.nil (k := k) (wish := wish) (show Serving.State α from
    { io := { io with arrived := io.arrived ++ bs, delivered := io.delivered ++ [.request r1, m, .request r2] }
      inbox := [.request r1, m, .request r2] })
  have t := t.snoc (.handle (a := []) (d := d1) rfl)
  have t := t.snoc (.handle (a := []) (m := m) (d := d1) rfl)
  rw [handle_other hm, hwish] at t
  have t := t.snoc (.handle (a := []) (m := .request r2) (d := d2) rfl)
  have t := t.snoc (.finish (a := []) (r := r1) (d := d1) (b := [(r2, d2)]) rfl hx1)
  have t := t.snoc (.finish (a := []) (r := r2) (d := d2) (b := []) rfl hx2)
  obtain ⟨as, s, h1, h2, h3, h4, h5, h6, h7, h8⟩ := serving_run hio hc (by simpa using fun h => hm' h.symm) t (by simp)
    rfl rfl rfl
  refine ⟨as, s, h1, h2, h3, h4, h5, ?_, ?_, ?_⟩
  · rw [h7]
    simp [Serving.State.handle, Serving.State.begin, Serving.State.finish, Serving.State.cancel, Incoming.register,
      Incoming.complete, Incoming.cancel, Table.insert, Table.remove, hid]
  · rw [h8]
    simp [Serving.State.handle, Serving.State.begin, Serving.State.finish, Serving.State.cancel, Incoming.register,
      Incoming.complete, Incoming.cancel, Table.insert, Table.remove, hid, Incoming.new]
  · rw [h6]
    simp [Serving.State.handle, Serving.State.begin, Serving.State.finish, Serving.State.cancel, Incoming.register,
      Incoming.complete, Incoming.cancel, Table.insert, Table.remove, hid, Spec.canceled, ErrorCode.code]

end

/-! ### Concrete cases -/

section
attribute [local instance] Ext.sample FloatText.sample Dbg.sample

/-- A request; the wish to cancel it; and another request. -/
def sampleServe (id : RequestId) : List (Json × Message) :=
  [(.obj [("id", .int 2), ("method", .str "workspace/buildTargets"), ("params", .null)],
      .request (.workspaceBuildTargets (.i32 2))),
   (.obj [("method", .str "$/cancelRequest"), ("params", .arr [.int 2])],
      .notification (.custom "$/cancelRequest" (.ofJson (.arr [.int 2])))),
   (.obj [("id", RequestId.enc id), ("method", .str "workspace/reload"), ("params", .null)], .request (.workspaceReload id))]

/-- What it says in the notification. -/
def sampleWish : Message → Option RequestId
  | .notification (.custom "$/cancelRequest" _) => some (.i32 2)
  | _ => none

set_option maxRecDepth 5000 in
theorem sampleServe_ok {id : RequestId} (h : id = .i32 2 ∨ id = .str "a") : ∀ x ∈ sampleServe id, Spec.nest x.1 ≤ 127 ∧
    Spec.Numbers x.1 ∧ (utf8 (Text.print x.1)).length ≤ 2 ^ 63 - 1 ∧ Message.dec x.1 = some x.2 := by
  intro x hx
  simp only [sampleServe, List.mem_cons, List.not_mem_nil, or_false] at hx
  rcases hx with rfl | rfl | rfl
  · exact ⟨by decide, by repeat' constructor, by decide +kernel, rfl⟩
  · exact ⟨by decide, by repeat' constructor, by decide +kernel, rfl⟩
  · rcases h with rfl | rfl <;>
    exact ⟨by decide, by repeat' constructor, by decide +kernel, rfl⟩

theorem sampleServe_carries {id : RequestId} (h : id = .i32 2 ∨ id = .str "a") :
    Spec.Carries (framed (sampleServe id)) ((sampleServe id).map Prod.snd) := carries_framed (sampleServe_ok h)

/-- Two requests with different ids, of which the first is cancelled: the outcome of its job is dropped. -/
theorem sampleServe_run (k : Kind) {x1 x2 : Response} (h1 : x1.id = .i32 2) (h2 : x2.id = .str "a") :
    ∃ as s, Serving.Steps k sampleWish { io := {} } as s ∧ Pool.Act.writeFails ∉ as ∧ Serving.Quiet k sampleWish s ∧
      s.io.delivered = (sampleServe (.str "a")).map Prod.snd ∧
      s.finished = [(.workspaceBuildTargets (.i32 2), "first", x1, none),
        (.workspaceReload (.str "a"), "second", x2, some "second")] ∧
      s.io.accepted = [.response (Spec.canceled (.i32 2)), .response x2] := by
  have t := Serving.Steps.nil (k := k) (wish := sampleWish) (show Serving.State String from
    { io := { ({} : Transport.State) with
                arrived := ({} : Transport.State).arrived ++ framed (sampleServe (.str "a"))
                delivered := ({} : Transport.State).delivered ++ (sampleServe (.str "a")).map Prod.snd }
      inbox := (sampleServe (.str "a")).map Prod.snd })
  have t := t.snoc (.handle (a := []) (m := .request (.workspaceBuildTargets (.i32 2))) (d := "first") rfl)
  have t := t.snoc (.handle (a := []) (m := .notification (.custom "$/cancelRequest" (.ofJson (.arr [.int 2])))) (d := "") rfl)
  have t := t.snoc (.handle (a := []) (m := .request (.workspaceReload (.str "a"))) (d := "second") rfl)
  have t := t.snoc (.finish (a := []) (r := .workspaceBuildTargets (.i32 2)) (d := "first")
    (b := [(.workspaceReload (.str "a"), "second")]) rfl h1)
  have t := t.snoc (.finish (a := []) (r := .workspaceReload (.str "a")) (d := "second") (b := []) rfl h2)
  obtain ⟨as, s, g1, g2, g3, g4, g5, g6, g7, g8⟩ := serving_run resting_start (sampleServe_carries (.inr rfl))
    (by simp [sampleServe]) t (by simp) rfl rfl rfl
  exact ⟨as, s, g1, g2, g3, g5, g7, g6⟩

/-- Beside C119_rest, C119_distinct: the two requests, of which the first is cancelled while its job runs. -/
example (k : Kind) {x1 x2 : Response} (h1 : x1.id = .i32 2) (h2 : x2.id = .str "a") : ∃ as, ∃ s : Serving.State String,
    Serving.Steps k sampleWish { io := {} } as s ∧
      s.io.out = Frame.write (.response (Spec.canceled (.i32 2))) ++ Frame.write (.response x2) ∧
      ((s.io.accepted.filterMap fun | .response x => some x.id | _ => none).Perm [.i32 2, .str "a"]) ∧
      ∀ r d x d', (r, d, x, some d') ∈ s.finished → d' = d := by
  obtain ⟨as, s, g1, g2, g3, g4, g5, g6⟩ := sampleServe_run k h1 h2
  have hw : ({} : Transport.State).writer ≠ writeError k := by cases k <;> simp [writeError]
  obtain ⟨_, _, _, _, _, _, _, b1, _⟩ := C119_rest (reachable_start k) rfl rfl hw g1 g2 g3
  obtain ⟨ds, sent, c1, c2, c3, _, c4⟩ := C119_distinct (reachable_start k) rfl rfl hw g1 g2 g3 (by rw [g4]; decide)
  refine ⟨as, s, g1, by rw [b1, g6]; simp, ?_, c4⟩
  have e1 : ds = (sampleServe (.str "a")).map Prod.snd := by rw [← g4, c1]; rfl
  have e2 : s.io.accepted = sent.map .response := by rw [c2]; rfl
  rw [e1] at c3
  rw [e2, List.filterMap_map]
  have : ((fun m : Message => match m with | .response x => some x.id | _ => none) ∘ Message.response) =
      some ∘ fun x : Response => x.id := rfl
  rw [this, List.filterMap_eq_map]
  exact c3

/-- Beside C119_once: whatever happens, with what has been received. -/
example (k : Kind) {as : List Pool.Act} {s : Serving.State String}
    (h : Serving.Steps k sampleWish { io := {} } as s) (hd : s.io.delivered <+: (sampleServe (.str "a")).map Prod.snd) :
    (s.io.accepted.filterMap fun | .response x => some x.id | _ => none).count (.i32 2) ≤ 1 := by
  obtain ⟨ds, sent, h1, h2, h3, _⟩ := C119_once (reachable_start k) rfl rfl h
  have e1 : s.io.delivered = ds := h1
  have e2 : s.io.accepted = sent.map .response := by rw [h2]; rfl
  have h4 := h3 (.i32 2)
  rw [e1] at hd
  have h5 : Spec.asks (.i32 2) ds ≤ Spec.asks (.i32 2) ((sampleServe (.str "a")).map Prod.snd) := by
    obtain ⟨r, hr⟩ := hd
    rw [← hr, asks_append]
    omega
  have h6 : Spec.asks (.i32 2) ((sampleServe (.str "a")).map Prod.snd) = 1 := by decide
  rw [e2, List.filterMap_map]
  have : ((fun m : Message => match m with | .response x => some x.id | _ => none) ∘ Message.response) =
      some ∘ fun x : Response => x.id := rfl
  rw [this, List.filterMap_eq_map]
  simp only [Spec.replies] at h4
  exact Nat.le_trans (Nat.le_trans (Nat.le_add_right _ _) h4) (h6 ▸ h5)

/-- Beside C119_stale: the id of the cancelled request is used again. -/
example (k : Kind) : ∃ as, ∃ s : Serving.State String, Serving.Steps k sampleWish { io := {} } as s ∧
    Serving.Quiet k sampleWish s ∧
    s.io.accepted = [.response (Spec.canceled (.i32 2)), .response ⟨.i32 2, some (.ofJson (.str "first")), none⟩] ∧
    s.finished.map Prod.snd = [("first", ⟨.i32 2, some (.ofJson (.str "first")), none⟩, some "second"),
      ("second", ⟨.i32 2, none, none⟩, none)] := by
  obtain ⟨as, s, h1, _, h2, _, _, h3, _, h4⟩ := C119_stale (k := k) (wish := sampleWish) resting_start
    (m := .notification (.custom "$/cancelRequest" (.ofJson (.arr [.int 2])))) (r1 := .workspaceBuildTargets (.i32 2))
    (r2 := .workspaceReload (.i32 2)) rfl (by simp) (by simp) rfl (sampleServe_carries (.inl rfl)) "first" "second"
    (x1 := ⟨.i32 2, some (.ofJson (.str "first")), none⟩) (x2 := ⟨.i32 2, none, none⟩) rfl rfl
  exact ⟨as, s, h1, h2, h4, by rw [h3]; rfl⟩

/-- Beside C119_reused: the same without the wish to cancel. -/
example (k : Kind) : ∃ as, ∃ s : Serving.State String, Serving.Steps k (fun _ => none) { io := {} } as s ∧
    Serving.Quiet k (fun _ => none) s ∧ Spec.asks (.i32 2) s.io.delivered = 2 ∧
    s.io.accepted = [.response ⟨.i32 2, some (.ofJson (.str "first")), none⟩] := by
  have hc : Spec.Carries (framed [(sampleServe (.i32 2))[0], (sampleServe (.i32 2))[2]])
      [.request (.workspaceBuildTargets (.i32 2)), .request (.workspaceReload (.i32 2))] :=
    carries_framed (js := [(sampleServe (.i32 2))[0], (sampleServe (.i32 2))[2]]) fun x hx =>
      sampleServe_ok (.inl rfl) x (by
        simp only [List.mem_cons, List.not_mem_nil, or_false] at hx
        rcases hx with rfl | rfl <;> simp [sampleServe])
  obtain ⟨as, s, h1, _, h2, _, h3, _, _, h4⟩ := C119_reused (k := k) (wish := fun _ => none) resting_start
    (r1 := .workspaceBuildTargets (.i32 2)) (r2 := .workspaceReload (.i32 2)) rfl hc "first" "second"
    (x1 := ⟨.i32 2, some (.ofJson (.str "first")), none⟩) (x2 := ⟨.i32 2, none, none⟩) rfl rfl
  exact ⟨as, s, h1, h2, by rw [h3]; decide, h4⟩

/-- Beside C119_terminates, C119_settles: a job that runs and a response that is to be sent. -/
example (k : Kind) : ∃ as t, Serving.Steps k sampleWish
    ({ jobs := [(.workspaceReload (.i32 2), "first")], outbox := [⟨.str "a", none, none⟩] } : Serving.State String) as t ∧
    Serving.Quiet k sampleWish t ∧ Acc (fun t s => ∃ a, a ≠ .peer ∧ Serving.Step k sampleWish s a t) t := by
  obtain ⟨as, t, h1, h2, _⟩ := C119_settles k sampleWish
    ({ jobs := [(.workspaceReload (.i32 2), "first")], outbox := [⟨.str "a", none, none⟩] } : Serving.State String)
  exact ⟨as, t, h1, h2, (C119_terminates k sampleWish).apply t⟩

end
end Bsp
