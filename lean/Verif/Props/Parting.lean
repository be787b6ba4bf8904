/-
C127: taking leave of a server that receives in one thread and sends in others, whatever the buffers.
-/
import Verif.Props.Hall

namespace Bsp
open Frame Json Transport
open Link (Move LinkStep Side)
open Conn (Dbg)
open Session (App toSend onSent)
open Flow (Caps Asks Lets Policy)
open Hall (World side sides)

section
variable [LawfulExt] [Dbg] [FloatText] {work : Request → List Message → Prop}
variable {c : Caps} {kc ks : Kind} {said : List Message} {sends : Policy}

/-! ### What holds at any time -/

/-- The invariant. -/
structure Parting (kc ks : Kind) (work : Request → List Message → Prop) (w0 : World) (said : List Message)
    (bs : List Pool.Act) (w : World) : Prop where
  link : Link.Reachable kc ks (sides w)
  crew : Crew.Steps ks work { io := w0.server.io } bs w.server
  wrote : Pool.Act.writeFails ∉ bs
  leaving : Spec.Leaving (w0.client.io.accepted ++ said) (sides w)

/-- What the server is doing. -/
theorem parting_crew {w0 w : World} {bs : List Pool.Act} (hm : Spec.Met kc ks w0) (hw : Spec.Works work)
    (link : Link.Reachable kc ks (sides w)) (crew : Crew.Steps ks work { io := w0.server.io } bs w.server)
    (hok : ∀ m ∈ w.client.io.accepted, Spec.Sayable m) :
    ∃ ds sent, CrewInv ks work w0.server.io bs w.server ds sent ∧ w.server.mine = [] ∧
      w.server.jobs.map (·.req) = Spec.requests ds ∧
      (w.server.main = .idle ∨ w.server.main = .ended (.ok ()) ∧ w.server.io.reader.ended = true) ∧
      ∀ m ∈ w.server.io.accepted, Spec.Sayable m ∧ m ≠ .notification .exit := by
  obtain ⟨p1, p2, p3, p4⟩ := pair_inv (link_pair hm.link)
  obtain ⟨ds, sent, I⟩ := crewInv (k := ks) p2 hm.rx hm.tx crew
  have hpre : w.server.io.delivered <+: w.client.io.accepted.map Spec.heard := C56_heard (link_pair link) hok
  have hno : Spec.NoShutdown ds := by
    intro id h
    obtain ⟨m, _, h2⟩ := List.mem_map.1 (hpre.subset (by rw [I.delivered]; exact List.mem_append_right _ h))
    exact heard_shutdown m id h2
  obtain ⟨h1, h2, h3⟩ := stage_open I.stage hno
  refine ⟨ds, sent, I, h2, h1, h3.imp id fun ⟨a, b, _⟩ => ⟨a, b⟩, ?_⟩
  intro m h
  rw [I.accepted] at h
  rcases List.mem_append.1 h with h | h
  · exact hm.sayable m (.inr h)
  · exact crew_sayable I h2 hw h

/-- The receiver is dropped only by a main thread that is done. -/
theorem crew_drops {p q : Crew.State} {a : Pool.Act} (h : Crew.Step ks work p a q) (h1 : p.io.rxAlive = true)
    (h2 : q.io.rxAlive = false) : ∃ r, p.main = .ended r := by
  cases h with
  | io hs hk =>
    obtain ⟨_, h3, _⟩ := pool_kind hk
    have := (io_same hs h3).2.2.1
    simp only at h2; rw [this, h1] at h2; cases h2
  | recv _ hs => cases hs; simp only at h2; rw [h1] at h2; cases h2
  | hire _ hs => cases hs; simp only at h2; rw [h1] at h2; cases h2
  | reply _ hs => cases hs; simp only at h2; rw [h1] at h2; cases h2
  | send hs => cases hs; simp only at h1 h2; rw [h1] at h2; cases h2
  | unsent => simp only at h1 h2; rw [h1] at h2; cases h2
  | dropRx h => exact h
  | _ => simp only at h2; rw [h1] at h2; cases h2

/-- A failed write is the end of the writer thread. -/
theorem crew_fails {p q : Crew.State} (h : Crew.Step ks work p .writeFails q) : q.io.writer = writeError ks := by
  generalize e : Pool.Act.writeFails = a at h
  cases h with
  | io hs hk =>
    subst e
    cases hs <;> cases hk <;> rfl
  | _ => cases e

omit [Dbg] [FloatText] in
/-- Exit is no request. -/
theorem requests_exit (ms : List Message) :
    Spec.requests (ms ++ [Message.notification .exit].map Spec.heard) = Spec.requests ms := by
  rw [requests_append]
  exact List.append_nil _

theorem parting_step {w0 w w' : World} {bs : List Pool.Act} {a : Hall.Ev} (hm : Spec.Met kc ks w0) (hw : Spec.Works work)
    (hok : ∀ m ∈ said, Spec.Sayable m ∧ m ≠ .notification .exit)
    (h : Parting kc ks work w0 said bs w) (hs : Hall.Goes kc ks work w a w') (hg : w'.client.gone = false)
    (hr : w'.client.io.rxAlive = true)
    (hsaid : w'.client.io.accepted <+: w0.client.io.accepted ++ said ++ [.notification .exit]) :
    ∃ bs', Parting kc ks work w0 said bs' w' := by
  have okA : ∀ m ∈ w'.client.io.accepted, Spec.Sayable m := by
    intro m h1
    rcases List.mem_append.1 (hsaid.subset h1) with h1 | h1
    · rcases List.mem_append.1 h1 with h1 | h1
      · exact (hm.sayable m (.inl h1)).1
      · exact (hok m h1).1
    · rw [List.mem_singleton.1 h1]; exact exit_sayable
  cases hs with
  | client hmv =>
    exact ⟨bs, .step h.link (.left (l := sides w) hmv), h.crew, h.wrote, ⟨hg, h.leaving.gone.2⟩, okA, h.leaving.okB,
      h.leaving.before, hsaid, h.leaving.sentB, hr, h.leaving.rxB⟩
  | @server a p hst hpe =>
    have hmv := hall_move (kc := kc) (x := w.client) hst hpe
    have link' : Link.Reachable kc ks (sides { w with server := p }) := by
      rcases hmv with hmv | ⟨ev, hmv⟩
      · simp only [sides, hmv]; exact h.link
      · exact .step h.link (.right (l := sides w) hmv)
    have crew' := Crew.Steps.snoc h.crew hst
    obtain ⟨ds, sent, I, i1, i2, i3, i4⟩ := parting_crew hm hw link' crew' okA
    have grows : w.server.io.delivered <+: p.io.delivered := by
      rcases hmv with hmv | ⟨act, hmv⟩
      · rw [show p.io = w.server.io from congrArg Side.io hmv]; exact List.prefix_refl _
      · exact (move_grows hmv).delivered
    have leaving' : Spec.Leaving (w0.client.io.accepted ++ said) (sides { w with server := p }) := by
      refine ⟨⟨hg, by simp [sides, side]⟩, okA, fun m hm => (i4 m hm).1, h.leaving.before, hsaid,
        fun hm => (i4 _ hm).2 rfl, hr, ?_⟩
      rcases h.leaving.rxB with h1 | h1
      · cases e : p.io.rxAlive with
        | true => exact .inl e
        | false =>
          obtain ⟨r, h2⟩ := crew_drops hst h1 e
          obtain ⟨_, _, _, _, _, h3, _⟩ := parting_crew hm hw h.link h.crew h.leaving.okA
          rw [h2] at h3
          rcases h3 with h3 | ⟨_, h3⟩
          · cases h3
          · exact .inr (grows.subset ((leave_reader h.link h.leaving (leaveInv h.link h.leaving)).2 h3).2)
      · exact .inr (grows.subset h1)
    refine ⟨bs ++ [a], link', crew', ?_, leaving'⟩
    have inv' := leaveInv link' leaving'
    simp only [List.mem_append, List.mem_singleton, not_or]
    refine ⟨h.wrote, ?_⟩
    intro e
    subst e
    have hw1 := crew_fails hst
    cases ks
    · exact inv'.wB.1 hw1
    · exact inv'.wB.2 hw1

theorem parting {w0 w : World} {as : List Hall.Ev} (hm : Spec.Met kc ks w0) (hw : Spec.Works work)
    (hok : ∀ m ∈ said, Spec.Sayable m ∧ m ≠ .notification .exit)
    (h : Hall.Dialog c kc ks work (w0.client.io.accepted ++ (said ++ [.notification .exit])) sends w0 as w)
    (hg : w.client.gone = false) (hr : w.client.io.rxAlive = true) : ∃ bs, Parting kc ks work w0 said bs w := by
  have key : ∀ {script : List Message} {u w : World} {as}, Hall.Dialog c kc ks work script sends u as w → u = w0 →
      script = w0.client.io.accepted ++ (said ++ [.notification .exit]) → w.client.gone = false →
      w.client.io.rxAlive = true → ∃ bs, Parting kc ks work w0 said bs w := by
    intro script u w as h
    induction h with
    | nil =>
      rintro rfl _ hg hr
      refine ⟨[], hm.link, ?_, by simp, ⟨hg, by simp [sides, side]⟩, fun m h1 => (hm.sayable m (.inl h1)).1,
        fun m h1 => (hm.sayable m (.inr h1)).1, ?_, ?_, fun h1 => (hm.sayable _ (.inr h1)).2 rfl, hr, .inl hm.rx⟩
      · have := hm.server
        rw [← this]
        exact .nil _
      · intro h1
        rcases List.mem_append.1 h1 with h1 | h1
        · exact (hm.sayable _ (.inl h1)).2 rfl
        · exact (hok _ h1).2 rfl
      · rw [List.append_assoc]; exact List.prefix_append _ _
    | @snoc as v a u hd hs ht ih =>
      rintro rfl rfl hg hr
      obtain ⟨bs, hv⟩ := ih rfl rfl (by
        have hs := hs.goes
        cases hs with
        | server => exact hg
        | client hmv =>
          cases e : v.client.gone with
          | false => rfl
          | true => have := (move_grows hmv).gone e; simp only at hg; rw [hg] at this; cases this) (by
        have hs := hs.goes
        cases hs with
        | server => exact hr
        | client hmv => exact (move_grows hmv).rx hr)
      refine parting_step hm hw hok hv hs.goes hg hr ?_
      rw [List.append_assoc]
      exact (hall_said (.snoc hd hs ht) (List.prefix_append _ _)).2
  exact key h rfl rfl hg hr

/-! ### Where the client waits -/

/-- The server has received exit; or the client has not sent it yet, and the server has received all it has sent. -/
theorem parting_heard (hc : 1 ≤ c.toRight) {w0 w : World} {bs : List Pool.Act} (hm : Spec.Met kc ks w0) (hw : Spec.Works work)
    (h : Parting kc ks work w0 said bs w)
    (ht : w.client.io.txAlive = true ∨ w.client.io.accepted = w0.client.io.accepted ++ said ++ [.notification .exit])
    {script : List Message} (hq : Hall.Waits c kc ks work script sends w) :
    w.server.io.delivered = w.client.io.accepted.map Spec.heard ∧
    (Message.notification .exit ∈ w.server.io.delivered ∧
        w.client.io.accepted = w0.client.io.accepted ++ said ++ [.notification .exit] ∨
      w.client.io.writer = .idle ∧ w.client.io.txAlive = true) := by
  have hpair := link_pair h.link
  have hi := leaveInv h.link h.leaving
  obtain ⟨ds, sent, I, i1, i2, i3, i4⟩ := parting_crew hm hw h.link h.crew h.leaving.okA
  cases hend : w.server.io.reader.ended with
  | true =>
    obtain ⟨h1, h2⟩ := (leave_reader h.link h.leaving hi).2 hend
    obtain ⟨h3, h4, _⟩ := exit_received hpair h.leaving.okA h.leaving.before h.leaving.sentA h2
    exact ⟨h4, .inl ⟨h2, h3⟩⟩
  | false =>
  have hmain : w.server.main = .idle := by
    rcases i3 with h1 | ⟨_, h1⟩
    · exact h1
    · rw [hend] at h1; cases h1
  obtain ⟨p1, p2, p3, p4⟩ := pair_inv hpair
  simp only [sides, side] at p1 p2 p3 p4
  have hrx : w.server.io.rxAlive = true := by
    cases e : w.server.io.rxAlive with
    | true => rfl
    | false => obtain ⟨r, h1⟩ := I.rx e; rw [hmain] at h1; cases h1
  have hin : w.server.io.inEnd = none := by
    refine Classical.byContradiction fun h1 => ?_
    have := (C52_exit p2 (hi.inB h1)).1
    rw [this] at hend; cases hend
  have noS : ∀ {a q}, Crew.Step ks work w.server a q → a ≠ .timeout →
      (a = .peer ∨ a = .writeFails →
        ∃ act, Pool.kindOf act = some a ∧ Link.Move ks kc (side w.server) w.client (.act act) (side q)) →
      q.io.out = w.server.io.out → (q.io.arrived = w.server.io.arrived ∨ Asks w.server.io) → False := by
    intro a q h1 h2 h3 h4 h5
    rcases hq (.server a) _ ⟨.server h1 h3, ⟨.inl rfl, .inl h4, .inl rfl, h5⟩⟩ trivial with h6 | h6
    · cases h6
    · cases h6; exact h2 rfl
  have hread : w.server.io.reader = .reading := by
    cases e : w.server.io.reader with
    | reading => rfl
    | sending m =>
      exfalso
      have hrec : w.server.main.receives = true := by rw [hmain]; rfl
      by_cases h1 : ∃ r, Crew.onRecv w.server.main (some m) = .answering r
      · obtain ⟨r, h1⟩ := h1
        obtain ⟨ms, h2⟩ := hw.some r
        exact noS (.hire hrec (.deliver _ m e hrx) h1 h2) (by simp) (by simp) rfl (.inl rfl)
      · exact noS (.recv hrec (.deliver _ m e hrx) (fun r h => h1 ⟨r, h⟩)) (by simp) (by simp) rfl (.inl rfl)
    | _ => rw [e] at hend; cases hend
  have hno : ∀ r, ¬ Settled w.server.io r := by
    intro r hs
    exact noS (.io (.read _ r hread hs) rfl) (by simp) (by simp) (by cases r <;> rfl) (by cases r <;> exact .inl rfl)
  have toS : w.server.io.arrived = w.client.io.out := by
    obtain ⟨t, ht⟩ := p3
    by_cases hne : t = []
    · rw [← ht, hne, List.append_nil]
    · have hst := Transport.Step.arrive (k := ks) w.server.io t hin
      exact (noS (.io hst rfl) (by simp) (fun _ => ⟨_, rfl,
        .arrive rfl hne (by simp only [side]; rw [ht]; exact List.prefix_refl _) hst⟩)
        rfl (.inr ⟨hread, hno⟩)).elim
  have hg := h.leaving.gone.1
  have noC : ∀ {act io}, Move kc ks w.client (side w.server) (.act act) { w.client with io } →
      Hall.Chooses script sends w (.client (.act act)) → ¬ Hall.Leaves (.client (.act act)) →
      (io.out = w.client.io.out ∨ io.out.length ≤ w.server.io.arrived.length + c.toRight) →
      io.arrived = w.client.io.arrived → False := by
    intro act io h2 h0 h1 h3 h4
    rcases hq (.client (.act act)) _ ⟨.client h2, ⟨h3, .inl rfl, .inl h4, .inl rfl⟩⟩ h0 with h6 | h6
    · exact h1 h6
    · cases h6
  have hidle : w.client.io.writer = .idle ∨ w.client.io.writer = .done := by
    cases e : w.client.io.writer with
    | idle => exact .inl rfl
    | done => exact .inr rfl
    | failed => exact absurd e hi.wA.1
    | panicked => exact absurd e hi.wA.2
    | writing r =>
      exfalso
      cases r with
      | nil => exact noC (.own hg (.written _ e) (by simp) (by simp) (by simp)) trivial id (.inl rfl) rfl
      | cons b r =>
        refine noC (.own hg (.write _ [b] r e (by simp)) (by simp) (by simp) (by simp)) trivial id (.inr ?_) rfl
        simp only [List.length_append, List.length_singleton, toS]
        omega
  have hall : w.server.io.delivered = w.client.io.accepted.map Spec.heard :=
    C56_heard_all hpair h.leaving.okA (by simp only [sides, side]; rw [toS, written_all p1 hidle]) hread (by
      rintro ⟨s', hs⟩
      cases hs with
      | read r _ hs => exact hno r hs)
  refine ⟨hall, .inr ?_⟩
  have hnx : w.client.io.accepted ≠ w0.client.io.accepted ++ said ++ [.notification .exit] := by
    intro e
    have h1 : Message.notification .exit ∈ w.server.io.delivered := by
      rw [hall, e, List.map_append]
      exact List.mem_append_right _ (List.mem_singleton.2 rfl)
    have := (C52_exit p2 h1).1
    rw [hread] at this; cases this
  have htx : w.client.io.txAlive = true := ht.resolve_right hnx
  refine ⟨hidle.resolve_right fun e => ?_, htx⟩
  have := (C54_drained p1 e).1
  rw [htx] at this; cases this

/-- When the client receives, it gets everything. -/
theorem parting_received (hc' : 1 ≤ c.toLeft) {w0 w : World} {bs : List Pool.Act} (hm : Spec.Met kc ks w0)
    (hw : Spec.Works work) (h : Parting kc ks work w0 said bs w) {script : List Message}
    (hq : Hall.Waits c kc ks work script sends w)
    (hd : w.client.io.accepted = script ∨ sends w.client.io.accepted w.client.io.delivered = false) :
    (w.client.io.arrived = w.server.io.out ∧ (w.server.io.writer = .idle ∨ w.server.io.writer = .done) ∧
      (∀ j ∈ w.server.jobs, j.left = []) ∧ (w.client.io.reader = .reading ∧ w.client.io.inEnd = none ∨
        w.client.io.reader = .done ∧ w.server.io.reader = .done ∧ w.server.io.writer = .done)) ∧
    ∃ ds sent, ∃ l : List (Request × List Message), w.server.io.delivered = w0.server.io.delivered ++ ds ∧
      w.client.io.delivered = w0.client.io.delivered ++ sent.map Spec.heard ∧
      l.map (·.1) = Spec.requests ds ∧ (∀ x ∈ l, work x.1 x.2) ∧ Spec.Merged (l.map (·.2)) sent := by
  have hpair := link_pair h.link
  have hi := leaveInv h.link h.leaving
  obtain ⟨rA, rB⟩ := leave_reader h.link h.leaving hi
  obtain ⟨ds, sent, I, i1, i2, i3, i4⟩ := parting_crew hm hw h.link h.crew h.leaving.okA
  obtain ⟨p1, p2, p3, p4⟩ := pair_inv hpair
  simp only [sides, side] at p1 p2 p3 p4
  have hg := h.leaving.gone.1
  have hr := h.leaving.rxA
  have hw0 : w0.server.io.writer ≠ writeError ks := by rw [hm.writers.2]; cases ks <;> simp [writeError]
  have hnf := crew_no_fail h.crew h.wrote hw0
  have hwi := writeInv p2
  have noC : ∀ {act io}, Move kc ks w.client (side w.server) (.act act) { w.client with io } →
      Hall.Chooses script sends w (.client (.act act)) → ¬ Hall.Leaves (.client (.act act)) →
      io.out = w.client.io.out → (io.arrived = w.client.io.arrived ∨ Asks w.client.io) → False := by
    intro act io h2 h0 h1 h3 h4
    rcases hq (.client (.act act)) _ ⟨.client h2, ⟨.inl h3, .inl rfl, h4, .inl rfl⟩⟩ h0 with h6 | h6
    · exact h1 h6
    · cases h6
  -- it is enough that all has arrived and that all that has arrived has been received
  have fin : w.client.io.arrived = w.server.io.out → (w.server.io.writer = .idle ∨ w.server.io.writer = .done) →
      (∀ j ∈ w.server.jobs, j.left = []) → (w.client.io.reader = .reading ∧ w.client.io.inEnd = none ∨
        w.client.io.reader = .done ∧ w.server.io.reader = .done ∧ w.server.io.writer = .done) →
      w.client.io.delivered = w.server.io.accepted.map Spec.heard →
      (w.client.io.arrived = w.server.io.out ∧ (w.server.io.writer = .idle ∨ w.server.io.writer = .done) ∧
        (∀ j ∈ w.server.jobs, j.left = []) ∧ (w.client.io.reader = .reading ∧ w.client.io.inEnd = none ∨
          w.client.io.reader = .done ∧ w.server.io.reader = .done ∧ w.server.io.writer = .done)) ∧
      ∃ ds sent, ∃ l : List (Request × List Message), w.server.io.delivered = w0.server.io.delivered ++ ds ∧
        w.client.io.delivered = w0.client.io.delivered ++ sent.map Spec.heard ∧
        l.map (·.1) = Spec.requests ds ∧ (∀ x ∈ l, work x.1 x.2) ∧ Spec.Merged (l.map (·.2)) sent := by
    intro f1 f2 f3 f4 f5
    obtain ⟨l, h1, h2, h3⟩ := crew_done I hnf f3
    rw [i1] at h3
    refine ⟨⟨f1, f2, f3, f4⟩, ds, sent, l, I.delivered, ?_, h1.trans i2, h2, merged_tail h3⟩
    rw [f5, I.accepted, List.map_append, hm.toClient]
  cases hend : w.client.io.reader.ended with
  | true =>
    obtain ⟨e1, e2, e3⟩ := rA hend
    obtain ⟨c1, c2⟩ := closed_ended h.leaving.gone.2 e3
    simp only [sides, side] at e1 e2 c1 c2
    have wS : w.server.io.writer = .done := by
      cases e : w.server.io.writer with
      | done => rfl
      | failed => exact absurd e hi.wB.1
      | panicked => exact absurd e hi.wB.2
      | _ => rw [e] at c2; cases c2
    obtain ⟨tS, oS⟩ := C54_drained p2 wS
    have arr : w.client.io.arrived = w.server.io.out := by
      rcases hi.inA with h1 | ⟨_, _, h1⟩
      · simp only [sides] at h1; rw [e2] at h1; cases h1
      · exact h1
    refine fin arr (.inr wS) (I.tx tS).2 (.inr ⟨e1, (rB c1).1, wS⟩) ?_
    rcases C55_done p1 e1 with ⟨ms, h1⟩ | ⟨_, h1⟩
    · exfalso
      have : Message.notification .exit ∈ w.client.io.delivered := by rw [h1]; simp
      obtain ⟨m, hm, he⟩ := List.mem_map.1 ((C56_heard (pair_swap hpair) h.leaving.okB).subset this)
      rw [heard_exit he] at hm
      exact h.leaving.sentB hm
    · rw [arr, oS] at h1
      have h2 := C13_heard_stream _ h.leaving.okB
      simp only [sides, side] at h2
      rw [h2] at h1
      exact (Prod.mk.inj h1).1.symm
  | false =>
  have hread : w.client.io.reader = .reading := by
    cases e : w.client.io.reader with
    | reading => rfl
    | sending m => exact (noC (.own hg (.deliver _ m e hr) (by simp) (by simp) (by simp)) hd id rfl (.inl rfl)).elim
    | _ => rw [e] at hend; cases hend
  have hno : ∀ r, ¬ Settled w.client.io r := by
    intro r hs
    exact noC (.own hg (.read _ r hread hs) (by simp) (by simp) (by simp)) trivial id (by cases r <;> rfl)
      (by cases r <;> exact .inl rfl)
  have hin : w.client.io.inEnd = none := by
    cases e : w.client.io.inEnd with
    | none => rfl
    | some b =>
      exact (hno (Frame.readMsg (⟨w.client.io.unread, b⟩ : Frame.Flat)) (by simp [Settled, e])).elim
  have toC : w.client.io.arrived = w.server.io.out := by
    obtain ⟨t, ht⟩ := p4
    by_cases hne : t = []
    · rw [← ht, hne, List.append_nil]
    · exact (noC (.arrive hg hne (by simp only [side]; rw [ht]; exact List.prefix_refl _)
        (.arrive _ t hin)) trivial id rfl (.inr ⟨hread, hno⟩)).elim
  have noS : ∀ {a q}, Crew.Step ks work w.server a q → a ≠ .timeout → a ≠ .peer → a ≠ .writeFails →
      (q.io.out = w.server.io.out ∨ q.io.out.length ≤ w.client.io.arrived.length + c.toLeft) →
      q.io.arrived = w.server.io.arrived → False := by
    intro a q h1 h2 h3 h3' h4 h5
    rcases hq (.server a) _ ⟨.server h1 (fun h => (h.elim h3 h3').elim), ⟨.inl rfl, h4, .inl rfl, .inl h5⟩⟩ trivial with h6 | h6
    · cases h6
    · cases h6; exact h2 rfl
  have hidle : w.server.io.writer = .idle ∨ w.server.io.writer = .done := by
    cases e : w.server.io.writer with
    | idle => exact .inl rfl
    | done => exact .inr rfl
    | failed => exact absurd e hi.wB.1
    | panicked => exact absurd e hi.wB.2
    | writing r =>
      exfalso
      cases r with
      | nil => exact noS (.io (.written _ e) rfl) (by simp) (by simp) (by simp) (.inl rfl) rfl
      | cons b r =>
        refine noS (.io (.write _ [b] r e (by simp)) rfl) (by simp) (by simp) (by simp) (.inr ?_) rfl
        simp only [List.length_append, List.length_singleton, toC]
        omega
  have hjobs : ∀ j ∈ w.server.jobs, j.left = [] := by
    intro j hj
    cases htx : w.server.io.txAlive with
    | false => exact (I.tx htx).2 j hj
    | true =>
      have hw1 : w.server.io.writer = .idle := hidle.resolve_right fun e => by
        have := (C54_drained p2 e).1; rw [htx] at this; cases this
      obtain ⟨r, s, left, z⟩ := j
      cases left with
      | nil => rfl
      | cons m l =>
        obtain ⟨a, b, hab⟩ := List.append_of_mem hj
        have hp : w.server = ⟨w.server.io, w.server.main, w.server.mine, a ++ ⟨r, s, m :: l, z⟩ :: b⟩ := by rw [← hab]
        obtain ⟨q, hst, e1, e2⟩ : ∃ q, Crew.Step ks work w.server .worker q ∧ q.io.out = w.server.io.out ∧
            q.io.arrived = w.server.io.arrived := by
          rw [hp]
          exact ⟨_, .send (.accept _ m hw1 htx), rfl, rfl⟩
        exact (noS hst (by simp) (by simp) (by simp) (.inl e1) e2).elim
  refine fin toC hidle hjobs (.inl ⟨hread, hin⟩) ?_
  exact C56_heard_all (pair_swap hpair) h.leaving.okB (by simp only [sides, side]; rw [toC, written_all p2 hidle]) hread (by
      rintro ⟨s', hs⟩
      cases hs with
      | read r _ hs => exact hno r hs)

/-- C127: a client as in C126 sends exit last.  However small the buffers, when it waits it has sent all; the main thread of
the server has ended well, and so have its I/O threads, but not before each request has had its thread and the client has
received all that these threads had to send.  If they are connected by a socket, the reader thread of the client has ended
well too, and if the client has dropped its sender, `join` returns Ok there as well. -/
theorem C127_parted (hc : 1 ≤ c.toRight) (hc' : 1 ≤ c.toLeft) {w0 w : World} {as : List Hall.Ev} (hm : Spec.Met kc ks w0)
    (hw : Spec.Works work) (hok : ∀ m ∈ said, Spec.Sayable m ∧ m ≠ .notification .exit)
    (hp : Spec.Patient work w0.client.io.accepted w0.client.io.delivered (said ++ [.notification .exit]) sends)
    (h : Hall.Dialog c kc ks work (w0.client.io.accepted ++ (said ++ [.notification .exit])) sends w0 as w)
    (hg : w.client.gone = false) (hr : w.client.io.rxAlive = true)
    (ht : w.client.io.txAlive = true ∨ w.client.io.accepted = w0.client.io.accepted ++ (said ++ [.notification .exit]))
    (hq : Hall.Waits c kc ks work (w0.client.io.accepted ++ (said ++ [.notification .exit])) sends w) :
    w.client.io.accepted = w0.client.io.accepted ++ (said ++ [.notification .exit]) ∧
    w.server.main = .ended (.ok ()) ∧ join ks w.server.io = .ok ∧
    (ks = .socket → w.client.io.reader = .done ∧ (w.client.io.txAlive = false → join kc w.client.io = .ok)) ∧
    ∃ (l : List (Request × List Message)) (sent : List Message), l.map (·.1) = Spec.requests (said.map Spec.heard) ∧
      (∀ x ∈ l, work x.1 x.2) ∧ Spec.Merged (l.map (·.2)) sent ∧
      w.client.io.delivered = w0.client.io.delivered ++ sent.map Spec.heard := by
  obtain ⟨bs, hh⟩ := parting hm hw hok h hg hr
  obtain ⟨⟨a, ha⟩, h2⟩ := hall_said h (List.prefix_append _ _)
  rw [← ha, List.prefix_append_right_inj] at h2
  have hassoc : w0.client.io.accepted ++ (said ++ [Message.notification .exit]) =
    w0.client.io.accepted ++ said ++ [.notification .exit] := (List.append_assoc _ _ _).symm
  obtain ⟨h4, h5⟩ := parting_heard hc hm hw hh (by rw [← hassoc]; exact ht) hq
  have hall : w.client.io.accepted = w0.client.io.accepted ++ (said ++ [.notification .exit]) := by
    refine Classical.byContradiction fun hne => ?_
    have hne' : a ≠ said ++ [.notification .exit] := fun e => hne (by rw [← ha, e])
    rcases h5 with ⟨_, h5⟩ | ⟨h5, h6⟩
    · exact hne (h5.trans hassoc.symm)
    cases hd : sends w.client.io.accepted w.client.io.delivered with
    | true =>
      obtain ⟨t, h2⟩ := h2
      cases t with
      | nil => rw [List.append_nil] at h2; exact hne' h2
      | cons m t =>
        have hst : Hall.Step c kc ks work w (.client (.act (.accept m))) _ :=
          ⟨.client (.own hg (.accept _ m h5 h6) (by simp) (by simp) (by simp)), ⟨.inl rfl, .inl rfl, .inl rfl, .inl rfl⟩⟩
        rcases hq _ _ hst ⟨by rw [← ha, List.append_assoc, List.prefix_append_right_inj, ← h2]; exact ⟨t, by simp⟩, hd⟩ with h6 | h6
        · exact h6
        · cases h6
    | false =>
      obtain ⟨_, ds, sent, l, e1, e2, e3, e4, e5⟩ := parting_received hc' hm hw hh hq (.inr hd)
      rw [h4, ← ha, List.map_append, hm.toServer, List.append_cancel_left_eq] at e1
      subst e1
      rw [← ha, e2] at hd
      have := hp a _ h2 hne' hd l e3 e4
      rw [List.length_map, (merged_perm e5).length_eq] at this
      omega
  have hi := leaveInv hh.link hh.leaving
  obtain ⟨i0, I', i1, i2, i3, i4, i5⟩ := parting_crew hm hw hh.link hh.crew hh.leaving.okA
  obtain ⟨p1, p2, p3, p4⟩ := pair_inv (link_pair hh.link)
  simp only [sides, side] at p1 p2 p3 p4
  have hx : Message.notification .exit ∈ w.server.io.delivered := by
    rw [h4, hall, List.map_append, List.map_append]
    exact List.mem_append_right _ (List.mem_append_right _ (List.mem_singleton.2 rfl))
  have rS : w.server.io.reader = .done := (C52_exit p2 hx).1
  obtain ⟨⟨f1, f2, f3, f4⟩, ds, sent, l, e1, e2, e3, e4, e5⟩ := parting_received hc' hm hw hh hq (.inl hall)
  have noS : ∀ {a q}, Crew.Step ks work w.server a q → a ≠ .timeout → a ≠ .peer → a ≠ .writeFails →
      q.io.out = w.server.io.out → q.io.arrived = w.server.io.arrived → False := by
    intro a q h1 h2 h3 h3' h4 h5
    rcases hq (.server a) _ ⟨.server h1 (fun h => (h.elim h3 h3').elim), ⟨.inl rfl, .inl h4, .inl rfl, .inl h5⟩⟩ trivial with h6 | h6
    · cases h6
    · cases h6; exact h2 rfl
  have hmain : w.server.main = .ended (.ok ()) := by
    rcases i4 with h1 | ⟨h1, _⟩
    · exact (noS (.closed (by rw [h1]; rfl) (by rw [rS]; rfl)) (by simp) (by simp) (by simp) rfl rfl).elim
    · exact h1
  have htx : w.server.io.txAlive = false := by
    cases e : w.server.io.txAlive with
    | false => rfl
    | true => exact (noS (.dropTx ⟨_, hmain⟩ f3 e) (by simp) (by simp) (by simp) rfl rfl).elim
  have wS : w.server.io.writer = .done := by
    rcases f2 with f2 | f2
    · exact (noS (.io (.close _ f2 htx) rfl) (by simp) (by simp) (by simp) rfl rfl).elim
    · exact f2
  have noC : ∀ {act io}, Move kc ks w.client (side w.server) (.act act) { w.client with io } →
      Hall.Chooses (w0.client.io.accepted ++ (said ++ [.notification .exit])) sends w (.client (.act act)) →
      ¬ Hall.Leaves (.client (.act act)) →
      (io.out = w.client.io.out ∨ io.out.length ≤ w.server.io.arrived.length + c.toRight) →
      io.arrived = w.client.io.arrived → False := by
    intro act io h2 h0 h1 h3 h4
    rcases hq (.client (.act act)) _ ⟨.client h2, ⟨h3, .inl rfl, .inl h4, .inl rfl⟩⟩ h0 with h6 | h6
    · exact h1 h6
    · cases h6
  refine ⟨hall, hmain, C58_ok_iff.2 ⟨rS, wS⟩, ?_, ?_⟩
  · rintro rfl
    have rC : w.client.io.reader = .done := by
      rcases f4 with ⟨_, f5⟩ | f4
      · exact (noC (.fin hg (by simp [side, Side.closed, rS, wS, Reader.ended, Writer.ended]) f1 (.hangUp _ false f5))
          trivial id (.inl rfl) rfl).elim
      · exact f4.1
    refine ⟨rC, fun htc => C58_ok_iff.2 ⟨rC, ?_⟩⟩
    obtain ⟨_, _, x3, x4, _⟩ := exit_received (link_pair hh.link) hh.leaving.okA hh.leaving.before hh.leaving.sentA hx
    simp only [sides, side] at x4
    cases e : w.client.io.writer with
    | done => rfl
    | failed => exact absurd e hi.wA.1
    | panicked => exact absurd e hi.wA.2
    | idle => exact (noC (.own hg (.close _ e htc) (by simp) (by simp) (by simp)) trivial id (.inl rfl) rfl).elim
    | writing r =>
      exfalso
      cases r with
      | nil => exact noC (.own hg (.written _ e) (by simp) (by simp) (by simp)) trivial id (.inl rfl) rfl
      | cons b r =>
        refine noC (.own hg (.write _ [b] r e (by simp)) (by simp) (by simp) (by simp)) trivial id (.inr ?_) rfl
        simp only [List.length_append, List.length_singleton, x4]
        omega
  · refine ⟨l, sent, ?_, e4, e5, e2⟩
    rw [h4, hall, List.map_append, hm.toServer, List.append_cancel_left_eq] at e1
    rw [e3, ← e1, List.map_append]
    exact requests_exit _

/-- C127: so there is a run in which the client says all, is served, says exit and drops its sender, and in which all ends
well. -/
theorem C127_reached (hc : 1 ≤ c.toRight) (hc' : 1 ≤ c.toLeft) {w0 : World} (hm : Spec.Met kc ks w0)
    (hg : w0.client.gone = false) (hr : w0.client.io.rxAlive = true) (ht : w0.client.io.txAlive = true)
    (hw : Spec.Works work) (hok : ∀ m ∈ said, Spec.Sayable m ∧ m ≠ .notification .exit)
    (hp : Spec.Patient work w0.client.io.accepted w0.client.io.delivered (said ++ [.notification .exit]) sends) :
    ∃ as w, Hall.Dialog c kc ks work (w0.client.io.accepted ++ (said ++ [.notification .exit])) sends w0 as w ∧
      w.client.io.accepted = w0.client.io.accepted ++ (said ++ [.notification .exit]) ∧
      w.server.main = .ended (.ok ()) ∧ join ks w.server.io = .ok ∧ (ks = .socket → join kc w.client.io = .ok) ∧
      ∃ (l : List (Request × List Message)) (sent : List Message), l.map (·.1) = Spec.requests (said.map Spec.heard) ∧
        (∀ x ∈ l, work x.1 x.2) ∧ Spec.Merged (l.map (·.2)) sent ∧
        w.client.io.delivered = w0.client.io.delivered ++ sent.map Spec.heard := by
  obtain ⟨as, v, h1, h2, k1, k2, k3⟩ :=
    hall_settle c kc ks work (w0.client.io.accepted ++ (said ++ [.notification .exit])) sends w0
  obtain ⟨h3, _⟩ := C127_parted hc hc' hm hw hok hp h1 (k1.trans hg) (k2.trans hr) (.inl (k3.trans ht)) h2
  have hst : Hall.Step c kc ks work v (.client (.act .dropTx))
      { v with client := { v.client with io := { v.client.io with txAlive := false } } } :=
    ⟨.client (.own (k1.trans hg) (.dropTx _) (by simp) (by simp) (by simp)),
      ⟨.inl rfl, .inl rfl, .inl rfl, .inl rfl⟩⟩
  obtain ⟨bs, w, h4, h5, k4, k5, k6⟩ := hall_settle c kc ks work
    (w0.client.io.accepted ++ (said ++ [.notification .exit])) sends
    { v with client := { v.client with io := { v.client.io with txAlive := false } } }
  have h6 := hall_append (.snoc h1 hst trivial) h4
  have hsent : w.client.io.accepted = w0.client.io.accepted ++ (said ++ [.notification .exit]) := by
    obtain ⟨e1, e2⟩ := hall_said h4 (by simp only [h3]; exact List.prefix_refl _)
    simp only [h3] at e1
    exact e2.eq_of_length_le e1.length_le
  obtain ⟨e1, e2, e3, e4, e5⟩ := C127_parted hc hc' hm hw hok hp h6 (k4.trans (k1.trans hg)) (k5.trans (k2.trans hr))
    (.inr hsent) h5
  exact ⟨_, w, h6, e1, e2, e3, fun h => (e4 h).2 k6, e5⟩

end
section
attribute [local instance] Ext.sample FloatText.sample Dbg.sample

/-- Beside C127_parted and C127_reached: through buffers of one byte a client sends thirteen requests and exit at once, and
receives twenty-six notifications before both ends of the socket are shut down. -/
example : ∃ as w, Hall.Dialog ⟨1, 1⟩ .socket .socket noteWork (manySaid 10 ++ [.notification .exit]) (fun _ _ => true)
      hallStart as w ∧
    w.server.main = .ended (.ok ()) ∧ join .socket w.server.io = .ok ∧ join .socket w.client.io = .ok ∧
    w.client.io.delivered.length = 26 := by
  obtain ⟨as, w, h1, h2, h3, h4, h5, l, sent, e1, e2, e3, e4⟩ := C127_reached (c := ⟨1, 1⟩) (kc := .socket) (ks := .socket)
    (said := manySaid 10) (sends := fun _ _ => true) (by simp) (by simp) (hallStart_met _ _) rfl rfl rfl noteWorks (many_ok 10)
    (fun _ _ _ _ h => by cases h)
  refine ⟨as, w, h1, h3, h4, h5 rfl, ?_⟩
  have hl : l.length = 13 := by
    have := congrArg List.length e1
    rw [many_requests, List.length_map] at this
    exact this
  have hsum : ∀ l : List (Request × List Message), (∀ x ∈ l, noteWork x.1 x.2) →
      (l.map (·.2)).flatten.length = 2 * l.length := by
    intro l h
    induction l with
    | nil => rfl
    | cons x l ih =>
      have e1 : x.2.length = 2 := by rw [show x.2 = _ from h x (by simp)]; rfl
      have e2 := ih fun y hy => h y (by simp [hy])
      simp only [List.map_cons, List.flatten_cons, List.length_append, List.length_cons, e1, e2]
      omega
  have := (merged_perm e3).length_eq
  rw [hsum l e2, hl] at this
  rw [e4]
  simp only [hallStart, List.nil_append, List.length_map, this]

end
end Bsp
