/-
C136: taking leave of a server with a fixed number of workers, behind finite buffers.
-/
import Verif.Props.Desk
import Verif.Props.Parting

namespace Bsp
open Frame Json Transport
open Link (Move LinkStep Side)
open Conn (Dbg)
open Session (App toSend onSent)
open Flow (Caps Asks Lets Policy)

section
variable [LawfulExt] [Dbg] [FloatText]
variable {c : Caps} {kc ks : Kind} {said script : List Message} {sends : Policy} {n : Nat}

/-! ### What holds at any time -/

/-- The invariant. -/
structure Closing (kc ks : Kind) (n : Nat) (w0 : Desk.World) (said : List Message) (bs : List Pool.Act) (w : Desk.World) :
    Prop where
  link : Link.Reachable kc ks (Desk.sides w)
  pool : Pool.Steps ks (Pool.start w0.server.io n) bs w.server
  wrote : Pool.Act.writeFails ∉ bs
  leaving : Spec.Leaving (w0.client.io.accepted ++ said) (Desk.sides w)

/-- The accounts of the workers, some of which may have ended. -/
structure LastBooks (w0 w : Desk.World) (n : Nat) (ds sent : List Message) : Prop where
  delivered : w.server.io.delivered = w0.server.io.delivered ++ ds
  accepted : w.server.io.accepted = w0.server.io.accepted ++ sent
  answered : (sent ++ owed w.server.workers).Perm ((Spec.requests ds).map Conn.reply)
  len : w.server.workers.length = n
  workers : ∀ x ∈ w.server.workers, x = .idle ∨ (∃ r, x = .answering r) ∨
    x = .ended (.ok ()) ∧ w.server.io.reader.ended = true
  gone : w.server.io.rxAlive = false ∨ w.server.io.txAlive = false → ∀ x ∈ w.server.workers, x = .ended (.ok ())
  sayable : ∀ m ∈ w.server.io.accepted, Spec.Sayable m ∧ m ≠ .notification .exit

/-- What the workers are doing. -/
theorem closing_books {w0 w : Desk.World} {bs : List Pool.Act} (hm : Spec.Staffed kc ks n w0)
    (hs : Spec.Askable said) (link : Link.Reachable kc ks (Desk.sides w))
    (pool : Pool.Steps ks (Pool.start w0.server.io n) bs w.server) (wrote : w.server.io.writer ≠ writeError ks)
    (hacc : w.client.io.accepted <+: w0.client.io.accepted ++ (said ++ [.notification .exit])) :
    ∃ ds sent, LastBooks w0 w n ds sent := by
  have hok : ∀ m ∈ w.client.io.accepted, Spec.Sayable m := by
    intro m h
    rcases List.mem_append.1 (hacc.subset h) with h | h
    · exact (hm.met.sayable m (.inl h)).1
    · rcases List.mem_append.1 h with h | h
      · exact (hs.sayable m h).1
      · rw [List.mem_singleton.1 h]; exact exit_sayable
  obtain ⟨p1, p2, p3, p4⟩ := pair_inv (link_pair hm.met.link)
  have I := poolInv (k := ks) p2 hm.met.rx hm.met.tx pool
  obtain ⟨ds, sent, served, lost, failed, T⟩ := I.tally
  have hpre : w.server.io.delivered <+: w.client.io.accepted.map Spec.heard := C56_heard (link_pair link) hok
  have hno : Spec.NoShutdown ds := by
    intro id h
    obtain ⟨m, _, h2⟩ := List.mem_map.1 (hpre.subset (by rw [T.delivered]; exact List.mem_append_right _ h))
    exact heard_shutdown m id h2
  have hds : ds <+: said.map Spec.heard ++ [.notification .exit] := by
    have h1 := hpre.trans (List.IsPrefix.map Spec.heard hacc)
    have h2 : w0.server.io.delivered = w0.client.io.accepted.map Spec.heard := hm.met.toServer
    have h3 : w.server.io.delivered = w0.server.io.delivered ++ ds := T.delivered
    rw [h3, List.map_append, h2, List.prefix_append_right_inj, List.map_append] at h1
    exact h1
  have hf : failed = [] := Classical.byContradiction fun h => wrote (T.broken h)
  have hl : lost = [] := by
    rw [List.eq_nil_iff_forall_not_mem]
    intro r hr
    obtain ⟨a, id, b, h1, _⟩ := T.late r hr
    exact hno id (by rw [h1]; simp)
  subst hf hl
  have hbad : ¬ Bad bs ds [] := by
    rintro (h | ⟨_, id, h⟩ | ⟨m, ⟨a, id, b, h, _⟩, _⟩)
    · exact h rfl
    · exact hno id h
    · exact hno id (by rw [h]; simp)
  have hfew : w.server.workers.countP rough = 0 := by
    have := T.few
    rw [no_shutdown_count hno] at this
    simpa using this
  have hwk : ∀ x ∈ w.server.workers, x = .idle ∨ (∃ r, x = .answering r) ∨
      x = .ended (.ok ()) ∧ w.server.io.reader.ended = true := by
    intro x hx
    have h1 := I.inLoop x hx
    have h6 := List.countP_eq_zero.1 hfew x hx
    cases x with
    | idle => exact .inl rfl
    | answering r => exact .inr (.inl ⟨r, rfl⟩)
    | stopping id => exact absurd rfl h6
    | leaving => exact absurd rfl h6
    | ended r =>
      cases r with
      | ok u =>
        rcases T.ends _ hx with ⟨h, _, _⟩ | h
        · exact .inr (.inr ⟨rfl, h⟩)
        · exact absurd h hbad
      | _ => exact absurd rfl h6
    | _ => exact h1.elim
  have hans : (sent ++ owed w.server.workers).Perm ((Spec.requests ds).map Conn.reply) := by
    have h1 := T.answered
    have h2 := T.received
    simp only [List.append_nil] at h1 h2
    have h3 := h1.trans (h2.map answerTo)
    have h4 : (Spec.requests ds).map answerTo = (Spec.requests ds).map Conn.reply := by
      refine List.map_congr_left fun r hr => answerTo_reply ?_
      rintro id rfl
      exact hno id (mem_of_requests hr)
    rwa [h4] at h3
  refine ⟨ds, sent, T.delivered, T.accepted, hans, I.len, hwk, ?_, ?_⟩
  · intro h x hx
    obtain ⟨r, rfl⟩ := I.gone h x hx
    rcases hwk _ hx with h1 | ⟨_, h1⟩ | ⟨h1, _⟩
    · cases h1
    · cases h1
    · exact h1
  · intro m h
    rw [T.accepted] at h
    rcases List.mem_append.1 h with h | h
    · exact hm.met.sayable m (.inr h)
    · obtain ⟨r, h1, rfl⟩ := List.mem_map.1 (hans.mem_iff.1 (List.mem_append_left _ h))
      have h5 := requests_mono hds r h1
      have h6 : Spec.requests (said.map Spec.heard ++ [Message.notification .exit]) = Spec.requests (said.map Spec.heard) :=
        requests_exit _
      rw [h6] at h5
      have h2 := hs.answers r h5
      obtain ⟨x, h3, _⟩ := isReply r
      exact ⟨⟨.inl (by rw [h3]; trivial), h2⟩, by rw [h3]; simp⟩

/-- The receiver is dropped only when all workers have ended. -/
theorem pool_drops {p q : Pool.State} {a : Pool.Act} (h : Pool.Step ks p a q) (h1 : p.io.rxAlive = true)
    (h2 : q.io.rxAlive = false) : ∀ x ∈ p.workers, ∃ r, x = .ended r := by
  cases h with
  | io hs hk =>
    obtain ⟨_, h3, _⟩ := pool_kind hk
    have := (io_same hs h3).2.2.1
    simp only at h2; rw [this, h1] at h2; cases h2
  | recv _ hs => cases hs; simp only at h1 h2; rw [h1] at h2; cases h2
  | send _ hs => cases hs; simp only at h1 h2; rw [h1] at h2; cases h2
  | dropRx h => exact h
  | _ => simp only at h1 h2; rw [h1] at h2; cases h2

/-- A failed write is the end of the writer thread. -/
theorem pool_fails {p q : Pool.State} (h : Pool.Step ks p .writeFails q) :
    q.io.writer = writeError ks ∧ q.io.accepted = p.io.accepted := by
  generalize e : Pool.Act.writeFails = a at h
  cases h with
  | io hs hk =>
    subst e
    cases hs <;> cases hk <;> exact ⟨rfl, rfl⟩
  | _ => cases e

theorem closing_step {w0 w w' : Desk.World} {bs : List Pool.Act} {a : Desk.Ev} (hn : 1 ≤ n) (hm : Spec.Staffed kc ks n w0)
    (hs : Spec.Askable said) (h : Closing kc ks n w0 said bs w) (hst : Desk.Goes kc ks w a w') (hg : w'.client.gone = false)
    (hr : w'.client.io.rxAlive = true)
    (hsaid : w'.client.io.accepted <+: w0.client.io.accepted ++ (said ++ [.notification .exit])) :
    ∃ bs', Closing kc ks n w0 said bs' w' := by
  have okA : ∀ m ∈ w'.client.io.accepted, Spec.Sayable m := by
    intro m h1
    rcases List.mem_append.1 (hsaid.subset h1) with h1 | h1
    · exact (hm.met.sayable m (.inl h1)).1
    · rcases List.mem_append.1 h1 with h1 | h1
      · exact (hs.sayable m h1).1
      · rw [List.mem_singleton.1 h1]; exact exit_sayable
  have hsaid' : w'.client.io.accepted <+: w0.client.io.accepted ++ said ++ [.notification .exit] := by
    rw [List.append_assoc]; exact hsaid
  cases hst with
  | client hmv =>
    exact ⟨bs, .step h.link (.left (l := Desk.sides w) hmv), h.pool, h.wrote, ⟨hg, h.leaving.gone.2⟩, okA, h.leaving.okB,
      h.leaving.before, hsaid', h.leaving.sentB, hr, h.leaving.rxB⟩
  | @server a p hst hpe =>
    have hmv := desk_move (kc := kc) (x := w.client) hst hpe
    have link' : Link.Reachable kc ks (Desk.sides { w with server := p }) := by
      rcases hmv with hmv | ⟨ev, hmv⟩
      · simp only [Desk.sides, hmv]; exact h.link
      · exact .step h.link (.right (l := Desk.sides w) hmv)
    have pool' := Pool.Steps.snoc h.pool hst
    have hw0 : w0.server.io.writer ≠ writeError ks := by
      rw [show w0.server.io.writer = _ from hm.met.writers.2]; cases ks <;> simp [writeError]
    obtain ⟨ds, sent, B⟩ := closing_books hm hs h.link h.pool (pool_no_fail h.pool h.wrote hw0) hsaid
    have grows : w.server.io.delivered <+: p.io.delivered := by
      rcases hmv with hmv | ⟨act, hmv⟩
      · rw [show p.io = w.server.io from congrArg Side.io hmv]; exact List.prefix_refl _
      · exact (move_grows hmv).delivered
    have okB : ∀ m ∈ p.io.accepted, Spec.Sayable m ∧ m ≠ .notification .exit := by
      by_cases ha : a = .writeFails
      · subst ha
        rw [(pool_fails hst).2]
        exact B.sayable
      · have hw1 : Pool.Act.writeFails ∉ bs ++ [a] := by
          simp only [List.mem_append, List.mem_singleton, not_or]
          exact ⟨h.wrote, fun e => ha e.symm⟩
        obtain ⟨_, _, B'⟩ := closing_books (w := { w with server := p }) hm hs link' pool' (pool_no_fail pool' hw1 hw0) hsaid
        exact B'.sayable
    have leaving' : Spec.Leaving (w0.client.io.accepted ++ said) (Desk.sides { w with server := p }) := by
      refine ⟨⟨hg, by simp [Desk.sides, Desk.side]⟩, okA, fun m hm => (okB m hm).1, h.leaving.before, hsaid',
        fun hm => (okB _ hm).2 rfl, hr, ?_⟩
      rcases h.leaving.rxB with h1 | h1
      · cases e : p.io.rxAlive with
        | true => exact .inl e
        | false =>
          have h2 := pool_drops hst h1 e
          refine .inr (grows.subset ((leave_reader h.link h.leaving (leaveInv h.link h.leaving)).2 ?_).2)
          cases hl : w.server.workers with
          | nil => have := B.len; rw [hl] at this; simp at this; omega
          | cons x l =>
            have hx : x ∈ w.server.workers := by rw [hl]; simp
            obtain ⟨r, rfl⟩ := h2 x hx
            rcases B.workers _ hx with h3 | ⟨_, h3⟩ | ⟨_, h3⟩
            · cases h3
            · cases h3
            · exact h3
      · exact .inr (grows.subset h1)
    refine ⟨bs ++ [a], link', pool', ?_, leaving'⟩
    have inv' := leaveInv link' leaving'
    simp only [List.mem_append, List.mem_singleton, not_or]
    refine ⟨h.wrote, ?_⟩
    intro e
    subst e
    have hw1 := (pool_fails hst).1
    cases ks
    · exact inv'.wB.1 hw1
    · exact inv'.wB.2 hw1

theorem closing {w0 w : Desk.World} {as : List Desk.Ev} (hn : 1 ≤ n) (hm : Spec.Staffed kc ks n w0) (hs : Spec.Askable said)
    (h : Desk.Steps c kc ks w0 as w) (hg : w.client.gone = false) (hr : w.client.io.rxAlive = true)
    (hacc : w.client.io.accepted <+: w0.client.io.accepted ++ (said ++ [.notification .exit])) :
    ∃ bs, Closing kc ks n w0 said bs w := by
  have key : ∀ {u w : Desk.World} {as}, Desk.Steps c kc ks u as w → u = w0 → w.client.gone = false →
      w.client.io.rxAlive = true →
      w.client.io.accepted <+: w0.client.io.accepted ++ (said ++ [.notification .exit]) →
      ∃ bs, Closing kc ks n w0 said bs w := by
    intro u w as h
    induction h with
    | nil =>
      rintro rfl hg hr _
      refine ⟨[], hm.met.link, ?_, by simp, ⟨hg, by simp [Desk.sides, Desk.side]⟩,
        fun m h1 => (hm.met.sayable m (.inl h1)).1, fun m h1 => (hm.met.sayable m (.inr h1)).1, ?_, ?_,
        fun h1 => (hm.met.sayable _ (.inr h1)).2 rfl, hr, .inl hm.met.rx⟩
      · rw [← hm.workers]; exact .nil _
      · intro h1
        rcases List.mem_append.1 h1 with h1 | h1
        · exact (hm.met.sayable _ (.inl h1)).2 rfl
        · exact (hs.sayable _ h1).2 rfl
      · rw [List.append_assoc]; exact List.prefix_append _ _
    | @snoc as v a u hd hst ih =>
      rintro rfl hg hr hacc
      obtain ⟨h1, h2⟩ := desk_back hst hg hr
      have h3 : v.client.io.accepted <+: u.client.io.accepted := by
        rcases desk_sent hst with h | ⟨m, _, h⟩
        · rw [h]; exact List.prefix_refl _
        · rw [h]; exact List.prefix_append _ _
      obtain ⟨bs, hv⟩ := ih rfl h1 h2 (h3.trans hacc)
      exact closing_step hn hm hs hv hst.goes hg hr hacc
  exact key h rfl hg hr hacc

/-! ### Where the client waits -/

/-- A worker that is waiting for a message finds that there will be none. -/
theorem desk_closed {p : Pool.State} (hx : App.idle ∈ p.workers) (hr : p.io.reader.ended = true) :
    ∃ q, Pool.Step ks p .worker q ∧ q.io = p.io := by
  obtain ⟨a, b, hab⟩ := List.append_of_mem hx
  have hp : p = ⟨p.io, a ++ .idle :: b⟩ := by rw [← hab]
  rw [hp]
  exact ⟨_, .closed rfl hr, rfl⟩

/-- The client has sent all, and receives. -/
theorem closing_rest (hn : 1 ≤ n) (hc : 1 ≤ c.toRight) (hc' : 1 ≤ c.toLeft) {w0 w : Desk.World} {bs : List Pool.Act}
    (hm : Spec.Staffed kc ks n w0) (hs : Spec.Askable said) (h : Closing kc ks n w0 said bs w)
    (hacc : w.client.io.accepted = w0.client.io.accepted ++ (said ++ [.notification .exit]))
    (hq : Desk.Waits c kc ks (w0.client.io.accepted ++ (said ++ [.notification .exit])) sends w) :
    w.server.workers = List.replicate n (.ended (.ok ())) ∧ join ks w.server.io = .ok ∧
    (ks = .socket → w.client.io.reader = .done ∧ (w.client.io.txAlive = false → join kc w.client.io = .ok)) ∧
    ∃ sent, Spec.AnyOrder (Spec.requests (said.map Spec.heard)) sent ∧
      w.client.io.delivered = w0.client.io.delivered ++ sent.map Spec.heard := by
  have hpair := link_pair h.link
  have hi := leaveInv h.link h.leaving
  obtain ⟨rA, rB⟩ := leave_reader h.link h.leaving hi
  have hw0 : w0.server.io.writer ≠ writeError ks := by
    rw [show w0.server.io.writer = _ from hm.met.writers.2]; cases ks <;> simp [writeError]
  obtain ⟨ds, sent, B⟩ := closing_books hm hs h.link h.pool (pool_no_fail h.pool h.wrote hw0)
    (by rw [hacc]; exact List.prefix_refl _)
  obtain ⟨p1, p2, p3, p4⟩ := pair_inv hpair
  simp only [Desk.sides, Desk.side] at p1 p2 p3 p4
  have hg : w.client.gone = false := h.leaving.gone.1
  have hr : w.client.io.rxAlive = true := h.leaving.rxA
  have noC : ∀ {act io}, Move kc ks w.client (Desk.side w.server) (.act act) { w.client with io } →
      Desk.Chooses (w0.client.io.accepted ++ (said ++ [.notification .exit])) sends w (.client (.act act)) →
      ¬ Desk.Leaves (.client (.act act)) →
      (io.out = w.client.io.out ∨ io.out.length ≤ w.server.io.arrived.length + c.toRight) →
      (io.arrived = w.client.io.arrived ∨ Asks w.client.io) → False := by
    intro act io h2 h0 h1 h3 h4
    rcases hq (.client (.act act)) _ ⟨.client h2, ⟨h3, .inl rfl, h4, .inl rfl⟩⟩ h0 with h6 | h6
    · exact h1 h6
    · cases h6
  have noS : ∀ {a q}, Pool.Step ks w.server a q → a ≠ .timeout →
      (a = .peer ∨ a = .writeFails →
        ∃ act, Pool.kindOf act = some a ∧ Move ks kc (Desk.side w.server) w.client (.act act) (Desk.side q)) →
      (q.io.out = w.server.io.out ∨ q.io.out.length ≤ w.client.io.arrived.length + c.toLeft) →
      (q.io.arrived = w.server.io.arrived ∨ Asks w.server.io) → False := by
    intro a q h1 h2 h3 h4 h5
    rcases hq (.server a) _ ⟨.server h1 h3, ⟨.inl rfl, h4, .inl rfl, h5⟩⟩ trivial with h6 | h6
    · cases h6
    · cases h6; exact h2 rfl
  -- the client receives all
  have recv : w.client.io.arrived = w.server.io.out ∧ (w.server.io.writer = .idle ∨ w.server.io.writer = .done) ∧
      (w.client.io.reader = .reading ∧ w.client.io.inEnd = none ∨ w.client.io.reader = .done) ∧
      w.client.io.delivered = w.server.io.accepted.map Spec.heard := by
    cases hend : w.client.io.reader.ended with
    | true =>
      obtain ⟨e1, e2, e3⟩ := rA hend
      obtain ⟨c1, c2⟩ := closed_ended h.leaving.gone.2 e3
      simp only [Desk.sides, Desk.side] at e1 e2 c1 c2
      have wS : w.server.io.writer = .done := by
        cases e : w.server.io.writer with
        | done => rfl
        | failed => exact absurd e hi.wB.1
        | panicked => exact absurd e hi.wB.2
        | _ => rw [e] at c2; cases c2
      obtain ⟨tS, oS⟩ := C54_drained p2 wS
      have arr : w.client.io.arrived = w.server.io.out := by
        rcases hi.inA with h1 | ⟨_, _, h1⟩
        · simp only [Desk.sides] at h1; rw [e2] at h1; cases h1
        · exact h1
      refine ⟨arr, .inr wS, .inr e1, ?_⟩
      rcases C55_done p1 e1 with ⟨ms, h1⟩ | ⟨_, h1⟩
      · exfalso
        have : Message.notification .exit ∈ w.client.io.delivered := by rw [h1]; simp
        obtain ⟨m, hm, he⟩ := List.mem_map.1 ((C56_heard (pair_swap hpair) h.leaving.okB).subset this)
        rw [heard_exit he] at hm
        exact h.leaving.sentB hm
      · rw [arr, oS] at h1
        have h2 := C13_heard_stream _ h.leaving.okB
        simp only [Desk.sides, Desk.side] at h2
        rw [h2] at h1
        exact (Prod.mk.inj h1).1.symm
    | false =>
      have hread : w.client.io.reader = .reading := by
        cases e : w.client.io.reader with
        | reading => rfl
        | sending m =>
          exact (noC (.own hg (.deliver _ m e hr) (by simp) (by simp) (by simp)) (.inl hacc) id (.inl rfl) (.inl rfl)).elim
        | _ => rw [e] at hend; cases hend
      have hno : ∀ r, ¬ Settled w.client.io r := by
        intro r hs
        exact noC (.own hg (.read _ r hread hs) (by simp) (by simp) (by simp)) trivial id (by cases r <;> exact .inl rfl)
          (by cases r <;> exact .inl rfl)
      have hin : w.client.io.inEnd = none := by
        cases e : w.client.io.inEnd with
        | none => rfl
        | some b =>
          exact (hno (Frame.readMsg (⟨w.client.io.unread, b⟩ : Frame.Flat)) (by simp [Settled, e])).elim
      have toC : w.client.io.arrived = w.server.io.out := by
        obtain ⟨t, ht⟩ := p4
        by_cases hne : t = []
        · rw [← ht, hne, List.append_nil]
        · exact (noC (.arrive hg hne (by simp only [Desk.side]; rw [ht]; exact List.prefix_refl _)
            (.arrive _ t hin)) trivial id (.inl rfl) (.inr ⟨hread, hno⟩)).elim
      have hidle : w.server.io.writer = .idle ∨ w.server.io.writer = .done := by
        cases e : w.server.io.writer with
        | idle => exact .inl rfl
        | done => exact .inr rfl
        | failed => exact absurd e hi.wB.1
        | panicked => exact absurd e hi.wB.2
        | writing r =>
          exfalso
          cases r with
          | nil => exact noS (.io (.written _ e) rfl) (by simp) (by simp) (.inl rfl) (.inl rfl)
          | cons b r =>
            refine noS (.io (.write _ [b] r e (by simp)) rfl) (by simp) (by simp) (.inr ?_) (.inl rfl)
            simp only [List.length_append, List.length_singleton, toC]
            omega
      refine ⟨toC, hidle, .inl ⟨hread, hin⟩, ?_⟩
      exact C56_heard_all (pair_swap hpair) h.leaving.okB
        (by simp only [Desk.sides, Desk.side]; rw [toC, written_all p2 hidle]) hread (by
          rintro ⟨s', hs⟩
          cases hs with
          | read r _ hs => exact hno r hs)
  obtain ⟨toC, hidle, hrc, hgot⟩ := recv
  -- no worker has an answer left
  have hfree : ∀ x ∈ w.server.workers, x = .idle ∨ x = .ended (.ok ()) ∧ w.server.io.reader.ended = true := by
    intro x hx
    rcases B.workers x hx with e | ⟨r, rfl⟩ | e
    · exact .inl e
    · exfalso
      have htx : w.server.io.txAlive = true := by
        cases e : w.server.io.txAlive with
        | true => rfl
        | false => have := B.gone (.inr e) _ hx; cases this
      have hw1 : w.server.io.writer = .idle := hidle.resolve_right fun e => by
        have := (C54_drained p2 e).1; rw [htx] at this; cases this
      obtain ⟨q, h1, h2, h3⟩ := desk_send (ks := ks) hx hw1 htx
      exact noS h1 (by simp) (by simp) (.inl h2) (.inl h3)
    · exact .inr e
  obtain ⟨x0, hx0⟩ : ∃ x, x ∈ w.server.workers := by
    cases e : w.server.workers with
    | nil => have := B.len; rw [e] at this; simp at this; omega
    | cons x l => exact ⟨x, by simp⟩
  -- the server has received exit
  have hend : w.server.io.reader.ended = true := by
    refine Classical.byContradiction fun hend => ?_
    have hallidle : ∀ x ∈ w.server.workers, x = .idle := by
      intro x hx
      rcases hfree x hx with e | ⟨_, e⟩
      · exact e
      · exact absurd e hend
    have hrx : w.server.io.rxAlive = true := by
      cases e : w.server.io.rxAlive with
      | true => rfl
      | false => have h1 := B.gone (.inl e) _ hx0; rw [hallidle _ hx0] at h1; cases h1
    have hin : w.server.io.inEnd = none :=
      Classical.byContradiction fun h1 => hend (by rw [(C52_exit p2 (hi.inB h1)).1]; rfl)
    have hreadS : w.server.io.reader = .reading := by
      cases e : w.server.io.reader with
      | reading => rfl
      | sending m =>
        obtain ⟨q, h1, h2, h3⟩ := desk_recv (ks := ks) (by rw [← hallidle _ hx0]; exact hx0) e hrx
        exact (noS h1 (by simp) (by simp) (.inl h2) (.inl h3)).elim
      | _ => rw [e] at hend; exact absurd rfl hend
    have hnoS : ∀ r, ¬ Settled w.server.io r := by
      intro r hs
      exact noS (.io (.read _ r hreadS hs) rfl) (by simp) (by simp) (by cases r <;> exact .inl rfl)
        (by cases r <;> exact .inl rfl)
    have toS : w.server.io.arrived = w.client.io.out := by
      obtain ⟨t, ht⟩ := p3
      by_cases hne : t = []
      · rw [← ht, hne, List.append_nil]
      · have hst := Transport.Step.arrive (k := ks) w.server.io t hin
        exact (noS (.io hst rfl) (by simp) (fun _ => ⟨_, rfl,
          .arrive rfl hne (by simp only [Desk.side]; rw [ht]; exact List.prefix_refl _) hst⟩)
          (.inl rfl) (.inr ⟨hreadS, hnoS⟩)).elim
    have hidleC : w.client.io.writer = .idle ∨ w.client.io.writer = .done := by
      cases e : w.client.io.writer with
      | idle => exact .inl rfl
      | done => exact .inr rfl
      | failed => exact absurd e hi.wA.1
      | panicked => exact absurd e hi.wA.2
      | writing r =>
        exfalso
        cases r with
        | nil => exact noC (.own hg (.written _ e) (by simp) (by simp) (by simp)) trivial id (.inl rfl) (.inl rfl)
        | cons b r =>
          refine noC (.own hg (.write _ [b] r e (by simp)) (by simp) (by simp) (by simp)) trivial id (.inr ?_) (.inl rfl)
          simp only [List.length_append, List.length_singleton, toS]
          omega
    have hall : w.server.io.delivered = w.client.io.accepted.map Spec.heard :=
      C56_heard_all hpair h.leaving.okA (by simp only [Desk.sides, Desk.side]; rw [toS, written_all p1 hidleC]) hreadS (by
        rintro ⟨s', hs⟩
        cases hs with
        | read r _ hs => exact hnoS r hs)
    have h1 : Message.notification .exit ∈ w.server.io.delivered := by
      rw [hall, hacc, List.map_append, List.map_append]
      exact List.mem_append_right _ (List.mem_append_right _ (List.mem_singleton.2 rfl))
    rw [(C52_exit p2 h1).1] at hreadS; cases hreadS
  obtain ⟨rS, hx⟩ := rB hend
  simp only [Desk.sides, Desk.side] at rS hx
  obtain ⟨_, x2, x3, x4, _⟩ := exit_received hpair h.leaving.okA h.leaving.before h.leaving.sentA hx
  simp only [Desk.sides, Desk.side] at x2 x4
  have hall : ∀ x ∈ w.server.workers, x = .ended (.ok ()) := by
    intro x hx1
    rcases hfree x hx1 with rfl | ⟨e, _⟩
    · obtain ⟨q, h1, h2⟩ := desk_closed (ks := ks) hx1 hend
      exact (noS h1 (by simp) (by simp) (.inl (by rw [h2])) (.inl (by rw [h2]))).elim
    · exact e
  have htx : w.server.io.txAlive = false := by
    cases e : w.server.io.txAlive with
    | false => rfl
    | true =>
      exact (noS (.dropTx (fun x hx => ⟨_, hall x hx⟩) e) (by simp) (by simp) (.inl rfl) (.inl rfl)).elim
  have wS : w.server.io.writer = .done := by
    rcases hidle with e | e
    · exact (noS (.io (.close _ e htx) rfl) (by simp) (by simp) (.inl rfl) (.inl rfl)).elim
    · exact e
  refine ⟨?_, C58_ok_iff.2 ⟨rS, wS⟩, ?_, sent, ?_, ?_⟩
  · rw [← B.len]; exact List.eq_replicate_of_mem hall
  · rintro rfl
    have rC : w.client.io.reader = .done := by
      rcases hrc with ⟨_, f5⟩ | f4
      · exact (noC (.fin hg (by simp [Desk.side, Side.closed, rS, wS, Reader.ended, Writer.ended]) toC (.hangUp _ false f5))
          trivial id (.inl rfl) (.inl rfl)).elim
      · exact f4
    refine ⟨rC, fun htc => C58_ok_iff.2 ⟨rC, ?_⟩⟩
    cases e : w.client.io.writer with
    | done => rfl
    | failed => exact absurd e hi.wA.1
    | panicked => exact absurd e hi.wA.2
    | idle => exact (noC (.own hg (.close _ e htc) (by simp) (by simp) (by simp)) trivial id (.inl rfl) (.inl rfl)).elim
    | writing r =>
      exfalso
      cases r with
      | nil => exact noC (.own hg (.written _ e) (by simp) (by simp) (by simp)) trivial id (.inl rfl) (.inl rfl)
      | cons b r =>
        refine noC (.own hg (.write _ [b] r e (by simp)) (by simp) (by simp) (by simp)) trivial id (.inr ?_) (.inl rfl)
        simp only [List.length_append, List.length_singleton, x4]
        omega
  · have ha0 : w0.server.io.delivered = w0.client.io.accepted.map Spec.heard := hm.met.toServer
    rw [B.delivered, hacc, List.map_append, ha0, List.append_cancel_left_eq, List.map_append] at x2
    have h1 := B.answered
    have h2 : owed w.server.workers = [] := by
      rw [owed, List.filterMap_eq_nil_iff]
      intro x hx
      rw [hall x hx]; rfl
    rw [h2, List.append_nil, x2, requests_exit] at h1
    exact desk_anyOrder said h1
  · have hd0 : w0.client.io.delivered = w0.server.io.accepted.map Spec.heard := hm.met.toClient
    rw [hgot, B.accepted, List.map_append, hd0]

/-- C136: a client as in C129 sends exit last.  However small the buffers, when it waits it has sent all; all workers have
ended well, and so have the I/O threads of the server, but not before each request has been answered once and the client
has received the answers.  If they are connected by a socket, the reader thread of the client has ended well too, and if the
client has dropped its sender, `join` returns Ok there as well. -/
theorem C136_parted (hn : 1 ≤ n) (hc : 1 ≤ c.toRight) (hc' : 1 ≤ c.toLeft) {w0 w : Desk.World} {as : List Desk.Ev}
    (hm : Spec.Staffed kc ks n w0) (hs : Spec.Askable said)
    (hp : Spec.Wary n c.toLeft w0.client.io.accepted w0.client.io.delivered (said ++ [.notification .exit]) sends)
    (h : Desk.Dialog c kc ks (w0.client.io.accepted ++ (said ++ [.notification .exit])) sends w0 as w)
    (hg : w.client.gone = false) (hr : w.client.io.rxAlive = true)
    (ht : w.client.io.txAlive = true ∨ w.client.io.accepted = w0.client.io.accepted ++ (said ++ [.notification .exit]))
    (hq : Desk.Waits c kc ks (w0.client.io.accepted ++ (said ++ [.notification .exit])) sends w) :
    w.client.io.accepted = w0.client.io.accepted ++ (said ++ [.notification .exit]) ∧
    w.server.workers = List.replicate n (.ended (.ok ())) ∧ join ks w.server.io = .ok ∧
    (ks = .socket → w.client.io.reader = .done ∧ (w.client.io.txAlive = false → join kc w.client.io = .ok)) ∧
    ∃ sent, Spec.AnyOrder (Spec.requests (said.map Spec.heard)) sent ∧
      w.client.io.delivered = w0.client.io.delivered ++ sent.map Spec.heard := by
  obtain ⟨⟨a, ha⟩, h2⟩ := desk_said h (List.prefix_append _ _)
  have hst := desk_dialog h
  have hall : w.client.io.accepted = w0.client.io.accepted ++ (said ++ [.notification .exit]) := by
    refine Classical.byContradiction fun hne => ?_
    have ht := ht.resolve_right hne
    have hpre : w.client.io.accepted <+: w0.client.io.accepted ++ said := by
      have h3 := h2
      rw [← List.append_assoc] at h3
      rcases List.prefix_concat_iff.1 h3 with h4 | h4
      · rw [List.append_assoc] at h4; exact absurd h4 hne
      · exact h4
    obtain ⟨bs, hh⟩ := atDesk hn hm hs hst hg hr hpre
    obtain ⟨ds, sent, B⟩ := desk_books hn hm hs hh.link hh.pool hh.wrote hh.inS ⟨a, ha⟩ hpre
    have hok : ∀ m ∈ w.client.io.accepted, Spec.Sayable m ∧ m ≠ .notification .exit := by
      intro m h1
      rcases List.mem_append.1 (hpre.subset h1) with h1 | h1
      · exact hm.met.sayable m (.inl h1)
      · exact hs.sayable m h1
    have hd0 : w0.client.io.delivered = w0.server.io.accepted.map Spec.heard := hm.met.toClient
    have ha0 : w0.server.io.delivered = w0.client.io.accepted.map Spec.heard := hm.met.toServer
    have h3 := h2
    rw [← ha, List.prefix_append_right_inj] at h3
    have hne' : a ≠ said ++ [.notification .exit] := fun e => hne (by rw [← ha, e])
    cases hd : sends w.client.io.accepted w.client.io.delivered with
    | true =>
      obtain ⟨c1, c2, c3⟩ := desk_crowded hn hc hc' hm hh B hg ht hq h2 hne hd
      obtain ⟨got, due, rfl, d2, d3, d4⟩ := desk_due hm hh B c1 (desk_got hst) c3
      have hdel : w.server.io.delivered <+: w.client.io.accepted.map Spec.heard :=
        C56_heard (link_pair hh.link) (fun m hm => (hok m hm).1)
      rw [B.delivered, ← ha, List.map_append, ha0, List.prefix_append_right_inj] at hdel
      obtain ⟨t, ht⟩ := hdel
      have hperm : (got ++ (due ++ owed w.server.workers ++ (Spec.requests t).map Conn.reply)).Perm
          ((Spec.requests (a.map Spec.heard)).map Conn.reply) := by
        rw [← ht, reqs_append, List.map_append, ← List.append_assoc, ← List.append_assoc]
        exact B.answered.append_right _
      rw [← ha, d2] at hd
      have := (hp a h3 hne' _ _ hperm).1 hd
      have e1 := owed_all _ c2
      rw [B.len] at e1
      simp only [List.flatMap_append, List.length_append, e1] at this
      omega
    | false =>
      obtain ⟨e1, e2, e3, _⟩ := desk_received hn hc hc' hm hh B hg hr ht hok hq (.inr hd)
      rw [B.delivered, ← ha, List.map_append, ha0, List.append_cancel_left_eq] at e1
      subst e1
      have h1 := B.answered
      rw [e3, List.append_nil] at h1
      rw [← ha, e2, B.accepted, List.map_append, ← hd0] at hd
      exact (hp a h3 hne' sent [] (by simpa using h1)).2 hd rfl
  obtain ⟨bs, hh⟩ := closing hn hm hs hst hg hr h2
  exact ⟨hall, closing_rest hn hc hc' hm hs hh hall hq⟩

/-- C136: so there is a run in which the client says all, is served, says exit and drops its sender, and in which all ends
well. -/
theorem C136_reached (hn : 1 ≤ n) (hc : 1 ≤ c.toRight) (hc' : 1 ≤ c.toLeft) {w0 : Desk.World}
    (hm : Spec.Staffed kc ks n w0) (hg : w0.client.gone = false) (hr : w0.client.io.rxAlive = true)
    (ht : w0.client.io.txAlive = true) (hs : Spec.Askable said)
    (hp : Spec.Wary n c.toLeft w0.client.io.accepted w0.client.io.delivered (said ++ [.notification .exit]) sends) :
    ∃ as w, Desk.Dialog c kc ks (w0.client.io.accepted ++ (said ++ [.notification .exit])) sends w0 as w ∧
      w.client.io.accepted = w0.client.io.accepted ++ (said ++ [.notification .exit]) ∧
      w.server.workers = List.replicate n (.ended (.ok ())) ∧ join ks w.server.io = .ok ∧
      (ks = .socket → join kc w.client.io = .ok) ∧
      ∃ sent, Spec.AnyOrder (Spec.requests (said.map Spec.heard)) sent ∧
        w.client.io.delivered = w0.client.io.delivered ++ sent.map Spec.heard := by
  obtain ⟨as, v, h1, h2, k1, k2, k3⟩ :=
    desk_settle c kc ks (w0.client.io.accepted ++ (said ++ [.notification .exit])) sends w0
  obtain ⟨h3, _⟩ := C136_parted hn hc hc' hm hs hp h1 (k1.trans hg) (k2.trans hr) (.inl (k3.trans ht)) h2
  have hst : Desk.Step c kc ks v (.client (.act .dropTx))
      { v with client := { v.client with io := { v.client.io with txAlive := false } } } :=
    ⟨.client (.own (k1.trans hg) (.dropTx _) (by simp) (by simp) (by simp)),
      ⟨.inl rfl, .inl rfl, .inl rfl, .inl rfl⟩⟩
  obtain ⟨bs, w, h4, h5, k4, k5, k6⟩ := desk_settle c kc ks
    (w0.client.io.accepted ++ (said ++ [.notification .exit])) sends
    { v with client := { v.client with io := { v.client.io with txAlive := false } } }
  have h6 := desk_append (.snoc h1 hst trivial) h4
  have hsent : w.client.io.accepted = w0.client.io.accepted ++ (said ++ [.notification .exit]) := by
    obtain ⟨e1, e2⟩ := desk_said h4 (by simp only [h3]; exact List.prefix_refl _)
    simp only [h3] at e1
    exact e2.eq_of_length_le e1.length_le
  obtain ⟨e1, e2, e3, e4, e5⟩ := C136_parted hn hc hc' hm hs hp h6 (k4.trans (k1.trans hg)) (k5.trans (k2.trans hr))
    (.inr hsent) h5
  exact ⟨_, w, h6, e1, e2, e3, fun h => (e4 h).2 k6, e5⟩

/-- C136: a client with another thread, which receives all the time, need not take care: when it has sent exit and nothing
can happen any more but that it drops its connection, all ends in the same way. -/
theorem C136_rest (hn : 1 ≤ n) (hc : 1 ≤ c.toRight) (hc' : 1 ≤ c.toLeft) {w0 w : Desk.World} {as : List Desk.Ev}
    (hm : Spec.Staffed kc ks n w0) (hs : Spec.Askable said) (h : Desk.Steps c kc ks w0 as w) (hg : w.client.gone = false)
    (hr : w.client.io.rxAlive = true)
    (hacc : w.client.io.accepted = w0.client.io.accepted ++ (said ++ [.notification .exit])) (hq : Desk.Quiet c kc ks w) :
    w.server.workers = List.replicate n (.ended (.ok ())) ∧ join ks w.server.io = .ok ∧
    (ks = .socket → w.client.io.reader = .done ∧ (w.client.io.txAlive = false → join kc w.client.io = .ok)) ∧
    ∃ sent, Spec.AnyOrder (Spec.requests (said.map Spec.heard)) sent ∧
      w.client.io.delivered = w0.client.io.delivered ++ sent.map Spec.heard := by
  obtain ⟨bs, hh⟩ := closing hn hm hs h hg hr (by rw [hacc]; exact List.prefix_refl _)
  refine closing_rest (sends := fun _ _ => true) hn hc hc' hm hs hh hacc ?_
  intro a v h1 h3
  rcases hq a v h1 with ⟨m, rfl⟩ | h4
  · have := h3.1.length_le
    rw [hacc, List.length_append, List.length_singleton] at this
    omega
  · exact h4

/-- C136: a client that has not sent exit and keeps its receiver waits for ever in `join`: no worker ends, and `join` returns
on neither side, also if the client has dropped its sender and has received all answers. -/
theorem C136_stay (hn : 1 ≤ n) {w0 w : Desk.World} {as : List Desk.Ev}
    (hm : Spec.Staffed kc ks n w0) (hs : Spec.Askable said) (h : Desk.Steps c kc ks w0 as w) (hg : w.client.gone = false)
    (hr : w.client.io.rxAlive = true) (hacc : w.client.io.accepted = w0.client.io.accepted ++ said) :
    (∀ x ∈ w.server.workers, ∀ r, x ≠ .ended r) ∧ join ks w.server.io = .waiting ∧ join kc w.client.io = .waiting := by
  have h2 : w.client.io.accepted <+: w0.client.io.accepted ++ said := by rw [hacc]; exact List.prefix_refl _
  obtain ⟨bs, hh⟩ := atDesk hn hm hs h hg hr h2
  obtain ⟨ds, sent, B⟩ := desk_books hn hm hs hh.link hh.pool hh.wrote hh.inS ⟨said, hacc.symm⟩ h2
  have wait : ∀ {k : Kind} {s : Transport.State}, s.reader.ended = false → join k s = .waiting := by
    intro k s h
    unfold join
    cases e : s.reader with
    | reading => rfl
    | sending => rfl
    | _ => rw [e] at h; cases h
  refine ⟨?_, wait hh.readS, wait hh.readC⟩
  rintro x hx r rfl
  rcases B.workers _ hx with h | ⟨_, h⟩ <;> cases h

end
section
attribute [local instance] Ext.sample FloatText.sample Dbg.sample

/-- Beside C136_parted and C136_reached: through buffers of one byte a client sends a hundred requests, of which at most five
are under way, to a server with three workers, and then exit; all three end well, and `join` returns Ok on both sides. -/
example : ∃ as w, Desk.Dialog ⟨1, 1⟩ .socket .socket (asking 100 ++ [.notification .exit]) (Spec.atMost 5 [] [])
      (deskStart 3) as w ∧
    w.server.workers = List.replicate 3 (.ended (.ok ())) ∧ join .socket w.server.io = .ok ∧
    join .socket w.client.io = .ok ∧ w.client.io.delivered.length = 100 := by
  obtain ⟨as, w, h1, h2, h3, h4, h5, sent, ⟨xs, e1, e2, _⟩, e3⟩ := C136_reached (c := ⟨1, 1⟩) (kc := .socket) (ks := .socket)
    (n := 3) (said := asking 100) (by simp) (by simp) (by simp) (deskStart_staffed .socket .socket 3) rfl rfl rfl
    (asking_ok 100) (atMost_wary (n := 3) (k := 5) (by simp) (by simp) 1 [] [] _)
  refine ⟨as, w, h1, h3, h4, h5 rfl, ?_⟩
  have h7 := e1.length_eq
  rw [asking_requests, List.length_map, List.length_replicate] at h7
  rw [e3, ← e2]
  simp [deskStart, h7]

/-- Beside C136_parted, C136_rest and C136_stay: three workers, and a client that sends twenty requests.  It can come to
rest with exit sent, and then all have ended; and it can drop its sender without having sent exit, and then nothing ends. -/
example : (∃ as w, Desk.Steps ⟨1, 1⟩ .socket .socket (deskStart 3) as w ∧ w.client.gone = false ∧
      w.client.io.rxAlive = true ∧ w.client.io.accepted = asking 20 ++ [.notification .exit] ∧
      Desk.Quiet ⟨1, 1⟩ .socket .socket w ∧ w.server.workers = List.replicate 3 (.ended (.ok ())) ∧
      w.client.io.reader = .done) ∧
    (∃ as w, Desk.Steps ⟨1, 1⟩ .socket .socket (deskStart 3) as w ∧ w.client.io.accepted = asking 20 ∧
      w.client.io.txAlive = false ∧ join .socket w.server.io = .waiting ∧ join .socket w.client.io = .waiting) := by
  constructor
  · obtain ⟨as, w, h1, h2, k1, k2, k3⟩ := desk_settle ⟨1, 1⟩ .socket .socket (asking 20 ++ [.notification .exit])
      (Spec.atMost 3 [] []) (deskStart 3)
    obtain ⟨h3, _⟩ := C136_parted (c := ⟨1, 1⟩) (n := 3) (said := asking 20) (by simp) (by simp) (by simp)
      (deskStart_staffed .socket .socket 3) (asking_ok 20) (atMost_wary (n := 3) (k := 3) (by simp) (by simp) 1 [] [] _)
      h1 k1 k2 (.inl k3) h2
    have hq : Desk.Quiet ⟨1, 1⟩ .socket .socket w := by
      intro a v hs
      by_cases ha : ∃ m, a = .client (.act (.accept m))
      · exact .inl ha
      · refine .inr (h2 a v hs ?_)
        cases a with
        | server => trivial
        | client e =>
          cases e with
          | exit => trivial
          | act x =>
            cases x with
            | accept m => exact absurd ⟨m, rfl⟩ ha
            | deliver m => exact .inl h3
            | _ => trivial
    obtain ⟨h4, _, h5, _⟩ := C136_rest (c := ⟨1, 1⟩) (n := 3) (said := asking 20) (by simp) (by simp) (by simp)
      (deskStart_staffed .socket .socket 3) (asking_ok 20) (desk_dialog h1) k1 k2 h3 hq
    exact ⟨as, w, desk_dialog h1, k1, k2, h3, hq, h4, (h5 rfl).1⟩
  · obtain ⟨as, w, h1, h2, k1, k2, k3⟩ := desk_settle ⟨1, 1⟩ .socket .socket (asking 20)
      (Spec.atMost 3 [] []) (deskStart 3)
    obtain ⟨h3, _⟩ := C129_window (c := ⟨1, 1⟩) (n := 3) (k := 3) (said := asking 20) (w0 := deskStart 3) (by simp) (by simp)
      (by simp) (by simp) (by simp) (deskStart_staffed .socket .socket 3) (asking_ok 20) h1 k1 k2 k3 h2
    have hst : Desk.Step ⟨1, 1⟩ .socket .socket w (.client (.act .dropTx))
        { w with client := { w.client with io := { w.client.io with txAlive := false } } } :=
      ⟨.client (.own k1 (.dropTx _) (by simp) (by simp) (by simp)), ⟨.inl rfl, .inl rfl, .inl rfl, .inl rfl⟩⟩
    have hd := Desk.Steps.snoc (desk_dialog h1) hst
    obtain ⟨_, h4, h5⟩ := C136_stay (n := 3) (said := asking 20) (by simp) (deskStart_staffed .socket .socket 3) (asking_ok 20)
      hd k1 k2 h3
    exact ⟨_, _, hd, h3, rfl, h4, h5⟩

end
end Bsp
