/-
C126: a server that receives in one thread and sends in others does not make a client with one thread wait for ever,
whatever the buffers.
-/
import Verif.Hall
import Verif.Props.Crew
import Verif.Props.Window

namespace Bsp
open Frame Json Transport
open Link (Move LinkStep Side)
open Conn (Dbg)
open Session (App toSend onSent)
open Flow (Caps Asks Lets Policy)
open Hall (World side sides)

section
variable [LawfulExt] [Dbg] [FloatText] {work : Request → List Message → Prop}
variable {c : Caps} {kc ks : Kind} {said : List Message} {sends : Policy}

/-! ### Specification -/

/-- The two are connected and have received all that the other has sent, as after the handshake; nothing has failed, no
exit has been sent, and the main thread of the server is about to receive.
Specification about README.md:14-37, bsp-server/src/transporter.rs:14-80 on both ends. -/
structure Spec.Met (kc ks : Kind) (w : World) : Prop where
  link : Link.Reachable kc ks (sides w)
  server : w.server = { io := w.server.io }
  rx : w.server.io.rxAlive = true
  tx : w.server.io.txAlive = true
  inEnds : w.client.io.inEnd = none ∧ w.server.io.inEnd = none
  readers : w.client.io.reader = .reading ∧ w.server.io.reader = .reading
  writers : w.client.io.writer = .idle ∧ w.server.io.writer = .idle
  toServer : w.server.io.delivered = w.client.io.accepted.map Spec.heard
  toClient : w.client.io.delivered = w.server.io.accepted.map Spec.heard
  sayable : ∀ m, m ∈ w.client.io.accepted ∨ m ∈ w.server.io.accepted → Spec.Sayable m ∧ m ≠ .notification .exit

/-- For each request there is something that its thread may send (perhaps nothing), and what threads send can be sent,
and is not exit. Specification about what stands in place of README.md:46-54. -/
structure Spec.Works (work : Request → List Message → Prop) : Prop where
  some : ∀ r, ∃ ms, work r ms
  sayable : ∀ r ms, work r ms → ∀ m ∈ ms, Spec.Sayable m ∧ m ≠ .notification .exit

/-- Before it has sent all, the client receives only if the threads that work on what it has sent, whatever they send, send
more than it has received. `a0`, `d0`: what it had sent and received before.
Specification about bsp-server/src/lib.rs:37-40. -/
def Spec.Patient (work : Request → List Message → Prop) (a0 d0 said : List Message) (sends : Policy) : Prop :=
  ∀ a d, a <+: said → a ≠ said → sends (a0 ++ a) (d0 ++ d) = false →
    ∀ l : List (Request × List Message), l.map (·.1) = Spec.requests (a.map Spec.heard) → (∀ x ∈ l, work x.1 x.2) →
      d.length < (l.map (·.2)).flatten.length

/-! ### After the handshake -/

/-- C126: that is where a client and the server of the README are, with any buffers that hold a byte, after the handshake and
any further messages without exit, when all is at rest: the server waits in its main loop, and may as well go on with
threads. -/
theorem C126_met {process : InitializeBuild → Option Value} {early : List Request} {id : RequestId} {ip : InitializeBuild}
    {v : Value} {pre : List Message} (hc : 1 ≤ c.toRight) (hc' : 1 ≤ c.toLeft)
    (hp : Spec.Plan process said early id ip v pre) {w : EndToEnd.World} {as : List EndToEnd.Ev}
    (h : Flow.Steps c kc ks process {} as w) (hg : w.client.gone = false) (hr : w.client.io.rxAlive = true)
    (htx : w.client.io.txAlive = true) (hs : w.client.io.accepted = said) (hq : Flow.Quiet c kc ks process w) :
    w.server.app = .idle ∧ w.server.exit = none ∧
    Spec.Met kc ks { client := w.client, server := { io := w.server.io } } := by
  have ht : Spec.Says said w := ⟨hg, hr, by rw [hs]; exact List.prefix_refl _⟩
  obtain ⟨bs, hw⟩ := talking hp (flow_steps h) ht
  obtain ⟨okA, _, hacc⟩ := talking_sent hp hw ht
  have hst := quiet_still hc hc' (talking_calm hw ht) hq
  have hq := still_quiet hst hq
  have hpair := link_pair hw.link
  obtain ⟨p1, p2, p3, p4⟩ := pair_inv hpair
  simp only [linkOf, EndToEnd.side] at p1 p2 p3 p4
  have noC : ∀ {act io}, Link.Ev.app (.act act) = false →
      ¬ Move kc ks w.client (EndToEnd.side w.server) (.act act) { w.client with io } := by
    intro act io h1 h2
    have : Link.Ev.app (.act act) = true := hq _ _ (.client h2)
    rw [h1] at this; cases this
  have noS : ∀ {a q}, Session.Step ks process w.server a q → a = .thread ∨ a = .main → False := by
    intro a q hs ha
    have := hq _ _ (.server hs (by rcases ha with rfl | rfl <;> simp))
    rcases ha with rfl | rfl <;> cases this
  rcases C71_nothing_pending hw.sess hw.wrote (quiet_server hq) with ⟨b, hb⟩ | ⟨h1, _, _, h4⟩
  · rw [hw.alive] at hb; cases hb
  have alive : w.server.io.rxAlive = true ∧ w.server.io.txAlive = true := by
    constructor
    · cases e : w.server.io.rxAlive with
      | true => rfl
      | false => obtain ⟨r, h3⟩ := (mainInv hw.sess).gone (.inl e); exact absurd h3 (hw.goes r)
    · cases e : w.server.io.txAlive with
      | true => rfl
      | false => obtain ⟨r, h3⟩ := (mainInv hw.sess).gone (.inr e); exact absurd h3 (hw.goes r)
  have wC : w.client.io.writer = .idle := by
    cases e : w.client.io.writer with
    | idle => rfl
    | done => have := (C54_drained p1 e).1; rw [htx] at this; cases this
    | writing r =>
      exfalso
      cases r with
      | nil => exact noC rfl (.own hg (.written _ e) (by simp) (by simp) (by simp))
      | cons c r => exact hst.writeC _ _ e
    | failed => exact absurd e hw.writeC.1
    | panicked => exact absurd e hw.writeC.2
  have hnf := no_fail hw.sess hw.wrote
  have wS : w.server.io.writer = .idle := by
    have hwi := writeInv p2
    cases e : w.server.io.writer with
    | idle => rfl
    | done => have := (C54_drained p2 e).1; rw [alive.2] at this; cases this
    | writing r =>
      exfalso
      cases r with
      | nil => exact noS (.io hw.alive (.written _ e) rfl) (.inl rfl)
      | cons c r => exact hst.writeS hw.alive _ _ e
    | failed => simp only [WriteInv, e] at hwi; rw [e, hwi.1] at hnf; exact absurd rfl hnf
    | panicked => simp only [WriteInv, e] at hwi; rw [e, hwi.1] at hnf; exact absurd rfl hnf
  have rS : w.server.io.reader = .reading := by
    cases e : w.server.io.reader with
    | sending m => exact (noS (.recv hw.alive h1 (.deliver _ m e alive.1)) (.inr rfl)).elim
    | reading => rfl
    | _ => have := hw.readS; simp [e, Reader.ended] at this
  have rC : w.client.io.reader = .reading := by
    cases e : w.client.io.reader with
    | sending m => exact (noC rfl (.own hg (.deliver _ m e hr) (by simp) (by simp) (by simp))).elim
    | reading => rfl
    | _ => have := hw.readC; simp [e, Reader.ended] at this
  have outC := written_all p1 (.inl wC)
  have outS := written_all p2 (.inl wS)
  have delS : w.server.io.delivered = w.client.io.accepted.map Spec.heard :=
    C56_heard_all hpair okA ((hst.toS hw.alive).trans outC) rS (by
      rintro ⟨s', hs'⟩
      exact noS (.io hw.alive hs' rfl) (.inl rfl))
  have okS : ∀ m ∈ w.server.io.accepted, Spec.Sayable m ∧ m ≠ .notification .exit :=
    fun m hm => plan_answers hp m (hacc.subset hm)
  have delC : w.client.io.delivered = w.server.io.accepted.map Spec.heard :=
    C56_heard_all (pair_swap hpair) (fun m hm => (okS m hm).1) (hst.toC.trans outS) rC (by
      rintro ⟨s', hs'⟩
      cases hs' with
      | read r i1 i2 => exact noC rfl (.own hg (.read _ r i1 i2) (by simp) (by simp) (by simp)))
  refine ⟨?_, hw.alive, ?_, rfl, alive.1, alive.2, ⟨hw.inC, hw.inS⟩, ⟨rC, rS⟩, ⟨wC, wS⟩, delS, delC, ?_⟩
  · have hat := (mainInv hw.sess).at' hnf
    rw [delS, hs, hp.heard, feed_session hp.refused hp.accepts (plan_pre hp).1] at hat
    cases hat with
    | rest h6 _ => exact h6
    | sending h6 => rw [receives_toSend h1] at h6; cases h6
    | late _ h6 => exact absurd h6 (hw.goes _)
    | closed _ _ h6 => exact absurd h6 (by rw [hw.readS]; simp)
  · have := hw.link
    simp only [linkOf, EndToEnd.side, hw.alive] at this
    exact this
  · intro m hm
    rcases hm with hm | hm
    · exact ⟨okA m hm, fun e => hp.noExit (by rw [← e, ← hs]; exact hm)⟩
    · exact okS m hm

/-! ### Runs -/

theorem hall_move {p q : Crew.State} {x : Side} {a : Pool.Act} (h : Crew.Step ks work p a q)
    (hp : a = .peer ∨ a = .writeFails → ∃ act, Pool.kindOf act = some a ∧ Move ks kc (side p) x (.act act) (side q)) :
    side q = side p ∨ ∃ ev, Move ks kc (side p) x ev (side q) := by
  cases h with
  | @io p b a io' h2 h3 =>
    refine .inr ?_
    cases h2 with
    | arrive bs _ => cases h3; obtain ⟨act, _, hm⟩ := hp (.inl rfl); exact ⟨_, hm⟩
    | hangUp b _ => cases h3; obtain ⟨act, _, hm⟩ := hp (.inl rfl); exact ⟨_, hm⟩
    | writeFails b _ => cases h3; obtain ⟨act, _, hm⟩ := hp (.inr rfl); exact ⟨_, hm⟩
    | deliver => cases h3
    | accept => cases h3
    | dropRx => cases h3
    | dropTx => cases h3
    | read r i1 i2 => exact ⟨_, .own rfl (.read _ r i1 i2) (by simp) (by simp) (by simp)⟩
    | undeliverable m i1 i2 => exact ⟨_, .own rfl (.undeliverable _ m i1 i2) (by simp) (by simp) (by simp)⟩
    | write a b i1 i2 => exact ⟨_, .own rfl (.write _ a b i1 i2) (by simp) (by simp) (by simp)⟩
    | written i1 => exact ⟨_, .own rfl (.written _ i1) (by simp) (by simp) (by simp)⟩
    | close i1 i2 => exact ⟨_, .own rfl (.close _ i1 i2) (by simp) (by simp) (by simp)⟩
  | recv _ h2 => exact .inr ⟨_, .own rfl h2 (by simp) (by simp) (by simp)⟩
  | hire _ h2 => exact .inr ⟨_, .own rfl h2 (by simp) (by simp) (by simp)⟩
  | closed => exact .inl rfl
  | reply _ h2 => exact .inr ⟨_, .own rfl h2 (by simp) (by simp) (by simp)⟩
  | noReply => exact .inl rfl
  | send h2 => exact .inr ⟨_, .own rfl h2 (by simp) (by simp) (by simp)⟩
  | unsent => exact .inl rfl
  | timeout => exact .inl rfl
  | dropRx => exact .inr ⟨_, .own rfl (.dropRx _) (by simp) (by simp) (by simp)⟩
  | dropTx => exact .inr ⟨_, .own rfl (.dropTx _) (by simp) (by simp) (by simp)⟩

/-- How what the client has sent grows. -/
theorem hall_sent {w w' : World} {a : Hall.Ev} (h : Hall.Step c kc ks work w a w') :
    w'.client.io.accepted = w.client.io.accepted ∨
    ∃ m, a = .client (.act (.accept m)) ∧ w'.client.io.accepted = w.client.io.accepted ++ [m] := by
  have h1 := h.goes
  cases h1 with
  | server => exact .inl rfl
  | @client ev x hm =>
    cases hm with
    | own hg hst _ _ _ =>
      cases hst with
      | accept m => exact .inr ⟨m, rfl, rfl⟩
      | read r => cases r <;> exact .inl rfl
      | _ => exact .inl rfl
    | arrive _ _ _ hst => cases hst; exact .inl rfl
    | fin _ _ _ hst => cases hst; exact .inl rfl
    | reset _ _ _ _ hst => cases hst; exact .inl rfl
    | fails _ _ _ _ hst => cases hst; exact .inl rfl
    | exit => exact .inl rfl

theorem hall_said {script : List Message} {w0 w : World} {as : List Hall.Ev}
    (h : Hall.Dialog c kc ks work script sends w0 as w) (h0 : w0.client.io.accepted <+: script) :
    w0.client.io.accepted <+: w.client.io.accepted ∧ w.client.io.accepted <+: script := by
  induction h with
  | nil => exact ⟨List.prefix_refl _, h0⟩
  | snoc _ hs ht ih =>
    obtain ⟨i1, i2⟩ := ih
    rcases hall_sent hs with h1 | ⟨m, rfl, h1⟩
    · rw [h1]; exact ⟨i1, i2⟩
    · rw [h1]; exact ⟨i1.trans (List.prefix_append _ _), ht.1⟩

/-! ### What holds at any time -/

/-- The invariant. -/
structure Hallway (kc ks : Kind) (work : Request → List Message → Prop) (w0 : World) (bs : List Pool.Act) (w : World) :
    Prop where
  link : Link.Reachable kc ks (sides w)
  crew : Crew.Steps ks work { io := w0.server.io } bs w.server
  wrote : Pool.Act.writeFails ∉ bs
  inC : w.client.io.inEnd = none
  inS : w.server.io.inEnd = none
  readC : w.client.io.reader.ended = false
  readS : w.server.io.reader.ended = false
  writeC : w.client.io.writer ≠ .failed ∧ w.client.io.writer ≠ .panicked

omit [LawfulExt] [Dbg] [FloatText] in
theorem heard_shutdown [Ext] (m : Message) (id : RequestId) : Spec.heard m ≠ .request (.shutdown id) := by
  cases m with
  | request r =>
    cases r with
    | custom i x v => simp only [Spec.heard]; split <;> simp
    | _ => simp [Spec.heard, Message.norm, Request.norm]
  | response r => simp [Spec.heard, Message.norm]
  | notification r => simp [Spec.heard, Message.norm]

omit [Dbg] in
/-- What the server has sent is what its threads send. -/
theorem crew_sayable {io : Transport.State} {as : List Pool.Act} {p : Crew.State} {ds sent : List Message}
    (hi : CrewInv ks work io as p ds sent) (hm : p.mine = []) (hw : Spec.Works work) {m : Message} (h : m ∈ sent) :
    Spec.Sayable m ∧ m ≠ .notification .exit := by
  have h1 := (merged_perm hi.merged).mem_iff.1 h
  rw [hm] at h1
  simp only [List.flatten_cons, List.nil_append, List.mem_flatten, List.mem_map] at h1
  obtain ⟨_, ⟨j, hj, rfl⟩, h2⟩ := h1
  exact hw.sayable _ _ (hi.works j hj) m (by simp [h2])

/-- What the invariant says of the server. -/
theorem hall_crew {w0 w : World} {bs : List Pool.Act} (hm : Spec.Met kc ks w0) (hw : Spec.Works work)
    (link : Link.Reachable kc ks (sides w)) (crew : Crew.Steps ks work { io := w0.server.io } bs w.server)
    (inS : w.server.io.inEnd = none)
    (hok : ∀ m ∈ w.client.io.accepted, Spec.Sayable m ∧ m ≠ .notification .exit) :
    ∃ ds sent, CrewInv ks work w0.server.io bs w.server ds sent ∧ w.server.main = .idle ∧ w.server.mine = [] ∧
      w.server.jobs.map (·.req) = Spec.requests ds ∧ w.server.io.rxAlive = true ∧ w.server.io.txAlive = true ∧
      ∀ m ∈ w.server.io.accepted, Spec.Sayable m ∧ m ≠ .notification .exit := by
  obtain ⟨p1, p2, p3, p4⟩ := pair_inv (link_pair hm.link)
  obtain ⟨ds, sent, I⟩ := crewInv (k := ks) p2 hm.rx hm.tx crew
  have hpre : w.server.io.delivered <+: w.client.io.accepted.map Spec.heard :=
    C56_heard (link_pair link) (fun m hm => (hok m hm).1)
  have hno : Spec.NoShutdown ds := by
    intro id h
    obtain ⟨m, _, h2⟩ := List.mem_map.1 (hpre.subset (by rw [I.delivered]; exact List.mem_append_right _ h))
    exact heard_shutdown m id h2
  have hne : Message.notification .exit ∉ w.server.io.delivered := by
    intro h
    obtain ⟨m, h1, h2⟩ := List.mem_map.1 (hpre.subset h)
    exact (hok m h1).2 (heard_exit h2)
  obtain ⟨h1, h2, h3⟩ := stage_open I.stage hno
  have hidle : w.server.main = .idle := by
    rcases h3 with h3 | ⟨_, h4, h5⟩
    · exact h3
    · exfalso
      rcases h5 with h5 | ⟨stop, h5⟩
      · exact hne h5
      · obtain ⟨q1, _, q3, _⟩ := pair_inv (link_pair link)
        obtain ⟨more, hmore⟩ := q3.trans (C53_output q1).1
        simp only [sides, side] at hmore
        simp only [Spec.Input, inS] at h5
        have e1 := h5 more false
        have e2 := h5 (more ++ Frame.write (.notification .exit)) false
        have e3 : ∀ m ∈ w.client.io.accepted ++ [.notification .exit], Spec.Sayable m := by
          intro m hm
          rcases List.mem_append.1 hm with hm | hm
          · exact (hok m hm).1
          · rw [List.mem_singleton.1 hm]; exact exit_sayable
        have e4 : w.server.io.arrived ++ (more ++ Frame.write (.notification .exit)) =
            (w.client.io.accepted ++ [Message.notification .exit]).flatMap Frame.write := by
          rw [← List.append_assoc, hmore, List.flatMap_append]; simp
        rw [hmore, C13_heard_stream _ (fun m hm => (hok m hm).1)] at e1
        rw [e4, C13_heard_stream _ e3] at e2
        have e5 := congrArg (fun x => x.1.length) (e1.trans e2.symm)
        simp at e5
  refine ⟨ds, sent, I, hidle, h2, h1, ?_, ?_, ?_⟩
  · cases h : w.server.io.rxAlive with
    | true => rfl
    | false => obtain ⟨r, h⟩ := I.rx h; rw [hidle] at h; cases h
  · cases h : w.server.io.txAlive with
    | true => rfl
    | false => obtain ⟨⟨r, h⟩, _⟩ := I.tx h; rw [hidle] at h; cases h
  · intro m h
    rw [I.accepted] at h
    rcases List.mem_append.1 h with h | h
    · exact hm.sayable m (.inr h)
    · exact crew_sayable I h2 hw h

theorem hallway_step {w0 w w' : World} {bs : List Pool.Act} {a : Hall.Ev} (hm : Spec.Met kc ks w0) (hw : Spec.Works work)
    (h : Hallway kc ks work w0 bs w) (hs : Hall.Goes kc ks work w a w') (hg : w.client.gone = false)
    (hr : w'.client.io.rxAlive = true)
    (hok : ∀ m ∈ w'.client.io.accepted, Spec.Sayable m ∧ m ≠ .notification .exit) :
    ∃ bs', Hallway kc ks work w0 bs' w' := by
  have cS : (side w.server).closed ks = false := by simp [side, Side.closed, h.readS]
  have cC : w.client.closed kc = false := by simp [Side.closed, hg, h.readC]
  have fin : ∀ {bs'}, Link.Reachable kc ks (sides w') → Crew.Steps ks work { io := w0.server.io } bs' w'.server →
      Pool.Act.writeFails ∉ bs' → w'.client.io.inEnd = none → w'.server.io.inEnd = none →
      w'.client.io.writer ≠ .failed ∧ w'.client.io.writer ≠ .panicked → ∃ bs', Hallway kc ks work w0 bs' w' := by
    intro bs' l1 l2 l3 l4 l5 l6
    obtain ⟨ds, sent, I, i1, i2, i3, i4, i5, i6⟩ := hall_crew hm hw l1 l2 l5 hok
    refine ⟨bs', l1, l2, l3, l4, l5, ?_, ?_, l6⟩
    · exact open_reader (pair_swap (link_pair l1)) (fun m hm => (i6 m hm).1) (fun hm => (i6 _ hm).2 rfl) l4 hr
    · exact open_reader (link_pair l1) (fun m hm => (hok m hm).1) (fun hm => (hok _ hm).2 rfl) l5 i4
  cases hs with
  | client hmv =>
    exact fin (.step h.link (.left (l := sides w) hmv)) h.crew h.wrote (open_inEnd hmv h.inC cS) h.inS
      (open_writer hmv h.writeC cS)
  | @server a p hst hpe =>
    have hmv := hall_move (kc := kc) (x := w.client) hst hpe
    refine fin (bs' := bs ++ [a]) ?_ (.snoc h.crew hst) ?_ h.inC ?_ h.writeC
    · rcases hmv with hmv | ⟨ev, hmv⟩
      · simp only [sides, hmv]; exact h.link
      · exact .step h.link (.right (l := sides w) hmv)
    · simp only [List.mem_append, List.mem_singleton, not_or]
      refine ⟨h.wrote, ?_⟩
      rintro rfl
      obtain ⟨act, h1, h2⟩ := hpe (.inr rfl)
      cases h2 with
      | fails _ h3 => rw [cC] at h3; cases h3
      | own _ h3 _ _ h4 => cases act <;> simp [Pool.kindOf] at h1 h4
      | _ => simp [Pool.kindOf] at h1
    · rcases hmv with hmv | ⟨ev, hmv⟩
      · rw [show p.io = w.server.io from congrArg Side.io hmv]; exact h.inS
      · exact open_inEnd hmv h.inS cC

theorem hallway {w0 w : World} {as : List Hall.Ev} (hm : Spec.Met kc ks w0) (hw : Spec.Works work)
    (hok : ∀ m ∈ said, Spec.Sayable m ∧ m ≠ .notification .exit)
    (h : Hall.Dialog c kc ks work (w0.client.io.accepted ++ said) sends w0 as w) (hg : w.client.gone = false)
    (hr : w.client.io.rxAlive = true) : ∃ bs, Hallway kc ks work w0 bs w := by
  have key : ∀ {script : List Message} {u w : World} {as}, Hall.Dialog c kc ks work script sends u as w → u = w0 →
      script = w0.client.io.accepted ++ said → w.client.gone = false → w.client.io.rxAlive = true →
      ∃ bs, Hallway kc ks work w0 bs w := by
    intro script u w as h
    induction h with
    | nil =>
      rintro rfl _ _ _
      refine ⟨[], hm.link, ?_, by simp, hm.inEnds.1, hm.inEnds.2, by rw [hm.readers.1]; rfl, by rw [hm.readers.2]; rfl,
        by rw [hm.writers.1]; simp⟩
      have := hm.server
      rw [← this]
      exact .nil _
    | @snoc as v a u hd hs ht ih =>
      rintro rfl rfl hg hr
      obtain ⟨bs, hv⟩ := ih rfl rfl (by
        have hs := hs.goes
        cases hs with
        | server => exact hg
        | client hmv =>
          cases e : v.client.gone with
          | false => rfl
          | true => have := (move_grows hmv).gone e; simp only at hg; rw [hg] at this; cases this) (by
        have hs := hs.goes
        cases hs with
        | server => exact hr
        | client hmv => exact (move_grows hmv).rx hr)
      refine hallway_step hm hw hv hs.goes ?_ hr ?_
      · have hs := hs.goes
        cases hs with
        | server => exact hg
        | client hmv =>
          cases e : v.client.gone with
          | false => rfl
          | true => have := (move_grows hmv).gone e; simp only at hg; rw [hg] at this; cases this
      · intro m h1
        have h2 := (hall_said (.snoc hd hs ht) (List.prefix_append _ _)).2.subset h1
        rcases List.mem_append.1 h2 with h2 | h2
        · exact hm.sayable m (.inl h2)
        · exact hok m h2
  exact key h rfl rfl hg hr

/-! ### Where the client waits -/

/-- The reader thread of the server gets everything, whether the client receives or not. -/
theorem hall_heard (hc : 1 ≤ c.toRight) {w0 w : World} {bs : List Pool.Act} (hm : Spec.Met kc ks w0) (hw : Spec.Works work)
    (h : Hallway kc ks work w0 bs w) (hg : w.client.gone = false) (ht : w.client.io.txAlive = true)
    (hok : ∀ m ∈ w.client.io.accepted, Spec.Sayable m ∧ m ≠ .notification .exit) {script : List Message}
    (hq : Hall.Waits c kc ks work script sends w) :
    w.client.io.writer = .idle ∧ w.server.io.delivered = w.client.io.accepted.map Spec.heard := by
  obtain ⟨ds, sent, I, i1, i2, i3, i4, i5, i6⟩ := hall_crew hm hw h.link h.crew h.inS hok
  obtain ⟨p1, p2, p3, p4⟩ := pair_inv (link_pair h.link)
  simp only [sides, side] at p1 p2 p3 p4
  have noS : ∀ {a q}, Crew.Step ks work w.server a q → a ≠ .timeout → 
      (a = .peer ∨ a = .writeFails →
        ∃ act, Pool.kindOf act = some a ∧ Link.Move ks kc (side w.server) w.client (.act act) (side q)) →
      q.io.out = w.server.io.out → (q.io.arrived = w.server.io.arrived ∨ Asks w.server.io) → False := by
    intro a q h1 h2 h3 h4 h5
    rcases hq (.server a) _ ⟨.server h1 h3, ⟨.inl rfl, .inl h4, .inl rfl, h5⟩⟩ trivial with h6 | h6
    · cases h6
    · cases h6; exact h2 rfl
  have hread : w.server.io.reader = .reading := by
    cases e : w.server.io.reader with
    | reading => rfl
    | sending m =>
      exfalso
      have hrec : w.server.main.receives = true := by rw [i1]; rfl
      by_cases h1 : ∃ r, Crew.onRecv w.server.main (some m) = .answering r
      · obtain ⟨r, h1⟩ := h1
        obtain ⟨ms, h2⟩ := hw.some r
        exact noS (.hire hrec (.deliver _ m e i4) h1 h2) (by simp) (by simp) rfl (.inl rfl)
      · exact noS (.recv hrec (.deliver _ m e i4) (fun r h => h1 ⟨r, h⟩)) (by simp) (by simp) rfl (.inl rfl)
    | _ => have := h.readS; rw [e] at this; cases this
  have hno : ∀ r, ¬ Settled w.server.io r := by
    intro r hs
    exact noS (.io (.read _ r hread hs) rfl) (by simp) (by simp) (by cases r <;> rfl) (by cases r <;> exact .inl rfl)
  have toS : w.server.io.arrived = w.client.io.out := by
    obtain ⟨t, ht⟩ := p3
    by_cases hne : t = []
    · rw [← ht, hne, List.append_nil]
    · have hst := Transport.Step.arrive (k := ks) w.server.io t h.inS
      exact (noS (.io hst rfl) (by simp) (fun _ => ⟨_, rfl,
        .arrive rfl hne (by simp only [side]; rw [ht]; exact List.prefix_refl _) hst⟩)
        rfl (.inr ⟨hread, hno⟩)).elim
  have noC : ∀ {act io}, Move kc ks w.client (side w.server) (.act act) { w.client with io } →
      Hall.Chooses script sends w (.client (.act act)) → ¬ Hall.Leaves (.client (.act act)) →
      (io.out = w.client.io.out ∨ io.out.length ≤ w.server.io.arrived.length + c.toRight) →
      io.arrived = w.client.io.arrived → False := by
    intro act io h2 h0 h1 h3 h4
    rcases hq (.client (.act act)) _ ⟨.client h2, ⟨h3, .inl rfl, .inl h4, .inl rfl⟩⟩ h0 with h6 | h6
    · exact h1 h6
    · cases h6
  have hidle : w.client.io.writer = .idle := by
    cases e : w.client.io.writer with
    | idle => rfl
    | done => have := (C54_drained p1 e).1; rw [ht] at this; cases this
    | failed => exact absurd e h.writeC.1
    | panicked => exact absurd e h.writeC.2
    | writing r =>
      exfalso
      cases r with
      | nil => exact noC (.own hg (.written _ e) (by simp) (by simp) (by simp)) trivial id (.inl rfl) rfl
      | cons b r =>
        refine noC (.own hg (.write _ [b] r e (by simp)) (by simp) (by simp) (by simp)) trivial id (.inr ?_) rfl
        simp only [List.length_append, List.length_singleton, toS]
        omega
  refine ⟨hidle, ?_⟩
  have hwi := writeInv p1
  simp only [WriteInv, hidle] at hwi
  exact C56_heard_all (link_pair h.link) (fun m hm => (hok m hm).1) (by simp only [sides, side]; rw [toS, hwi])
    hread (by
      rintro ⟨s', hs⟩
      cases hs with
      | read r _ hs => exact hno r hs)

/-- When the client receives, it gets everything. -/
theorem hall_received (hc' : 1 ≤ c.toLeft) {w0 w : World} {bs : List Pool.Act} (hm : Spec.Met kc ks w0)
    (hw : Spec.Works work) (h : Hallway kc ks work w0 bs w) (hg : w.client.gone = false) (hr : w.client.io.rxAlive = true)
    (hok : ∀ m ∈ w.client.io.accepted, Spec.Sayable m ∧ m ≠ .notification .exit) {script : List Message}
    (hq : Hall.Waits c kc ks work script sends w)
    (hd : w.client.io.accepted = script ∨ sends w.client.io.accepted w.client.io.delivered = false) :
    ∃ ds sent, ∃ l : List (Request × List Message), w.server.io.delivered = w0.server.io.delivered ++ ds ∧
      w.client.io.delivered = w0.client.io.delivered ++ sent.map Spec.heard ∧
      l.map (·.1) = Spec.requests ds ∧ (∀ x ∈ l, work x.1 x.2) ∧ Spec.Merged (l.map (·.2)) sent := by
  obtain ⟨ds, sent, I, i1, i2, i3, i4, i5, i6⟩ := hall_crew hm hw h.link h.crew h.inS hok
  obtain ⟨p1, p2, p3, p4⟩ := pair_inv (link_pair h.link)
  simp only [sides, side] at p1 p2 p3 p4
  have noC : ∀ {act io}, Move kc ks w.client (side w.server) (.act act) { w.client with io } →
      Hall.Chooses script sends w (.client (.act act)) → ¬ Hall.Leaves (.client (.act act)) →
      io.out = w.client.io.out → (io.arrived = w.client.io.arrived ∨ Asks w.client.io) → False := by
    intro act io h2 h0 h1 h3 h4
    rcases hq (.client (.act act)) _ ⟨.client h2, ⟨.inl h3, .inl rfl, h4, .inl rfl⟩⟩ h0 with h6 | h6
    · exact h1 h6
    · cases h6
  have hread : w.client.io.reader = .reading := by
    cases e : w.client.io.reader with
    | reading => rfl
    | sending m => exact (noC (.own hg (.deliver _ m e hr) (by simp) (by simp) (by simp)) hd id rfl (.inl rfl)).elim
    | _ => have := h.readC; rw [e] at this; cases this
  have hno : ∀ r, ¬ Settled w.client.io r := by
    intro r hs
    exact noC (.own hg (.read _ r hread hs) (by simp) (by simp) (by simp)) trivial id (by cases r <;> rfl)
      (by cases r <;> exact .inl rfl)
  have toC : w.client.io.arrived = w.server.io.out := by
    obtain ⟨t, ht⟩ := p4
    by_cases hne : t = []
    · rw [← ht, hne, List.append_nil]
    · exact (noC (.arrive hg hne (by simp only [side]; rw [ht]; exact List.prefix_refl _)
        (.arrive _ t h.inC)) trivial id rfl (.inr ⟨hread, hno⟩)).elim
  have noS : ∀ {a q}, Crew.Step ks work w.server a q → a ≠ .timeout → a ≠ .peer → a ≠ .writeFails →
      (q.io.out = w.server.io.out ∨ q.io.out.length ≤ w.client.io.arrived.length + c.toLeft) →
      q.io.arrived = w.server.io.arrived → False := by
    intro a q h1 h2 h3 h3' h4 h5
    rcases hq (.server a) _ ⟨.server h1 (fun h => (h.elim h3 h3').elim), ⟨.inl rfl, h4, .inl rfl, .inl h5⟩⟩ trivial with h6 | h6
    · cases h6
    · cases h6; exact h2 rfl
  have hw0 : w0.server.io.writer ≠ writeError ks := by rw [hm.writers.2]; cases ks <;> simp [writeError]
  have hnf := crew_no_fail h.crew h.wrote hw0
  have hwi := writeInv p2
  have hidle : w.server.io.writer = .idle := by
    cases e : w.server.io.writer with
    | idle => rfl
    | done => have := (C54_drained p2 e).1; rw [i5] at this; cases this
    | failed => simp only [WriteInv, e] at hwi; rw [e, hwi.1] at hnf; exact absurd rfl hnf
    | panicked => simp only [WriteInv, e] at hwi; rw [e, hwi.1] at hnf; exact absurd rfl hnf
    | writing r =>
      exfalso
      cases r with
      | nil => exact noS (.io (.written _ e) rfl) (by simp) (by simp) (by simp) (.inl rfl) rfl
      | cons b r =>
        refine noS (.io (.write _ [b] r e (by simp)) rfl) (by simp) (by simp) (by simp) (.inr ?_) rfl
        simp only [List.length_append, List.length_singleton, toC]
        omega
  have hjobs : ∀ j ∈ w.server.jobs, j.left = [] := by
    intro j hj
    obtain ⟨r, s, left, z⟩ := j
    cases left with
    | nil => rfl
    | cons m l =>
      obtain ⟨a, b, hab⟩ := List.append_of_mem hj
      have hp : w.server = ⟨w.server.io, w.server.main, w.server.mine, a ++ ⟨r, s, m :: l, z⟩ :: b⟩ := by rw [← hab]
      obtain ⟨q, hst, e1, e2⟩ : ∃ q, Crew.Step ks work w.server .worker q ∧ q.io.out = w.server.io.out ∧
          q.io.arrived = w.server.io.arrived := by
        rw [hp]
        exact ⟨_, .send (.accept _ m hidle i5), rfl, rfl⟩
      exact (noS hst (by simp) (by simp) (by simp) (.inl e1) e2).elim
  simp only [WriteInv, hidle] at hwi
  have hall : w.client.io.delivered = w.server.io.accepted.map Spec.heard :=
    C56_heard_all (pair_swap (link_pair h.link)) (fun m hm => (i6 m hm).1) (by simp only [sides, side]; rw [toC, hwi])
    hread (by
      rintro ⟨s', hs⟩
      cases hs with
      | read r _ hs => exact hno r hs)
  obtain ⟨l, h1, h2, h3⟩ := crew_done I hnf hjobs
  rw [i2] at h3
  refine ⟨ds, sent, l, I.delivered, ?_, h1.trans i3, h2, merged_tail h3⟩
  rw [hall, I.accepted, List.map_append, hm.toClient]

/-- C126: a client with one thread is connected to a server that receives in one thread and sends in others.  It sends
what it has to say and receives when it likes, only that it does not wait for what may never come; it may as well send all
first.  However small the buffers, when it waits (C126_terminates), it has sent all, each of its requests has had its
thread, and it has received all that these threads had to send, of each thread in order, and nothing else. -/
theorem C126_served (hc : 1 ≤ c.toRight) (hc' : 1 ≤ c.toLeft) {w0 w : World} {as : List Hall.Ev} (hm : Spec.Met kc ks w0)
    (hw : Spec.Works work) (hok : ∀ m ∈ said, Spec.Sayable m ∧ m ≠ .notification .exit)
    (hp : Spec.Patient work w0.client.io.accepted w0.client.io.delivered said sends)
    (h : Hall.Dialog c kc ks work (w0.client.io.accepted ++ said) sends w0 as w) (hg : w.client.gone = false)
    (hr : w.client.io.rxAlive = true) (ht : w.client.io.txAlive = true)
    (hq : Hall.Waits c kc ks work (w0.client.io.accepted ++ said) sends w) :
    w.client.io.accepted = w0.client.io.accepted ++ said ∧
    ∃ (l : List (Request × List Message)) (sent : List Message), l.map (·.1) = Spec.requests (said.map Spec.heard) ∧
      (∀ x ∈ l, work x.1 x.2) ∧ Spec.Merged (l.map (·.2)) sent ∧
      w.client.io.delivered = w0.client.io.delivered ++ sent.map Spec.heard := by
  obtain ⟨bs, hh⟩ := hallway hm hw hok h hg hr
  obtain ⟨⟨a, ha⟩, h2⟩ := hall_said h (List.prefix_append _ _)
  rw [← ha, List.prefix_append_right_inj] at h2
  have hok' : ∀ m ∈ w.client.io.accepted, Spec.Sayable m ∧ m ≠ .notification .exit := by
    intro m h1
    rw [← ha] at h1
    rcases List.mem_append.1 h1 with h1 | h1
    · exact hm.sayable m (.inl h1)
    · exact hok m (h2.subset h1)
  obtain ⟨h3, h4⟩ := hall_heard hc hm hw hh hg ht hok' hq
  have hall : w.client.io.accepted = w0.client.io.accepted ++ said := by
    refine Classical.byContradiction fun hne => ?_
    have hne' : a ≠ said := fun e => hne (by rw [← ha, e])
    cases hd : sends w.client.io.accepted w.client.io.delivered with
    | true =>
      obtain ⟨t, rfl⟩ := h2
      cases t with
      | nil => simp at hne'
      | cons m t =>
        have hst : Hall.Step c kc ks work w (.client (.act (.accept m))) _ :=
          ⟨.client (.own hg (.accept _ m h3 ht) (by simp) (by simp) (by simp)), ⟨.inl rfl, .inl rfl, .inl rfl, .inl rfl⟩⟩
        rcases hq _ _ hst ⟨by rw [← ha, List.append_assoc, List.prefix_append_right_inj]; exact ⟨t, by simp⟩, hd⟩ with h6 | h6
        · exact h6
        · cases h6
    | false =>
      obtain ⟨ds, sent, l, e1, e2, e3, e4, e5⟩ := hall_received hc' hm hw hh hg hr hok' hq (.inr hd)
      rw [h4, ← ha, List.map_append, hm.toServer, List.append_cancel_left_eq] at e1
      subst e1
      rw [← ha, e2] at hd
      have := hp a _ h2 hne' hd l e3 e4
      rw [List.length_map, (merged_perm e5).length_eq] at this
      omega
  refine ⟨hall, ?_⟩
  obtain ⟨ds, sent, l, e1, e2, e3, e4, e5⟩ := hall_received hc' hm hw hh hg hr hok' hq (.inl hall)
  rw [h4, hall, List.map_append, hm.toServer, List.append_cancel_left_eq] at e1
  subst e1
  exact ⟨l, sent, e3, e4, e5, e2⟩

/-! ### It gets there -/

/-- The same client and the same threads, for what is left to be done (C96). -/
def hallWorld (w : World) : EndToEnd.World := { client := w.client, server := { io := w.server.io } }

/-- What is left to be done. -/
def hallWork (script : List Message) (w : World) : Nat × Nat × (Nat × Nat × Nat) × Nat :=
  (script.length - w.client.io.accepted.length, toServer (hallWorld w), crewWork w.server, toClient (hallWorld w))

/-- Only the peer brings something. -/
theorem crew_takes {p q : Crew.State} {a : Pool.Act} (h : Crew.Step ks work p a q) (hp : a ≠ .peer) :
    q.io.arrived = p.io.arrived ∧ q.io.inEnd = p.io.inEnd := by
  cases h with
  | io hs hk =>
    cases hs with
    | arrive _ _ => simp [Pool.kindOf] at hk; exact absurd hk.symm hp
    | hangUp _ _ => simp [Pool.kindOf] at hk; exact absurd hk.symm hp
    | read r _ _ => cases r <;> exact ⟨rfl, rfl⟩
    | _ => exact ⟨rfl, rfl⟩
  | recv _ hs => cases hs with | deliver _ _ _ => exact ⟨rfl, rfl⟩
  | hire _ hs => cases hs with | deliver _ _ _ => exact ⟨rfl, rfl⟩
  | reply _ hs => cases hs with | accept _ _ _ => exact ⟨rfl, rfl⟩
  | send hs => cases hs with | accept _ _ _ => exact ⟨rfl, rfl⟩
  | _ => exact ⟨rfl, rfl⟩

theorem hallWork_decreases {script : List Message} {w w' : World} {a : Hall.Ev} (hs : Hall.Step c kc ks work w a w')
    (ht : Hall.Chooses script sends w a) (hl : ¬ Hall.Leaves a) :
    Prod.Lex (· < ·) (Prod.Lex (· < ·) (Prod.Lex (Prod.Lex (· < ·) (Prod.Lex (· < ·) (· < ·))) (· < ·)))
      (hallWork script w') (hallWork script w) := by
  by_cases ha : ∃ m, a = .client (.act (.accept m))
  · obtain ⟨m, rfl⟩ := ha
    have hle := List.IsPrefix.length_le ht.1
    refine .left _ _ ?_
    have hs := hs.goes
    cases hs with
    | client hm =>
      cases hm with
      | own _ hst =>
        cases hst with
        | accept m =>
          simp only [List.length_append, List.length_singleton] at hle ⊢
          omega
  · have hacc : w'.client.io.accepted = w.client.io.accepted := by
      rcases hall_sent hs with h | ⟨m, rfl, _⟩
      · exact h
      · exact absurd ⟨m, rfl⟩ ha
    refine Prod.lex_def.2 (.inr ⟨by simp only [hallWork, hacc], ?_⟩)
    have hs := hs.goes
    cases hs with
    | @client ev x hm =>
      have happ : ev.app = false := by
        cases ev with
        | exit => exact absurd trivial hl
        | act y =>
          cases y with
          | accept m => exact absurd ⟨m, rfl⟩ ha
          | dropRx => exact absurd trivial hl
          | dropTx => exact absurd trivial hl
          | _ => rfl
      rcases client_work (w := hallWorld w) hm happ with h1 | ⟨h1, h2⟩
      · exact .left _ _ h1
      · exact Prod.lex_def.2 (.inr ⟨h1, Prod.lex_def.2 (.inr ⟨rfl, h2⟩)⟩)
    | @server a p hst hpe =>
      by_cases h1 : a = .peer
      · obtain ⟨act, h2, h3⟩ := hpe (.inl h1)
        refine .left _ _ (peer_work (w := hallWorld w) (p := { io := p.io }) (act := act) ?_ h3)
        rw [h1] at h2
        cases act <;> first | rfl | cases h2
      · have h2 := crew_takes hst h1
        refine Prod.lex_def.2 (.inr ⟨?_, .left _ _ (crewWork_decreases hst h1)⟩)
        simp only [hallWork, hallWorld, toServer, h2]

/-- C126: whatever it decides, the client gets to where it waits, or leaves. -/
theorem C126_terminates (c : Caps) (kc ks : Kind) (work : Request → List Message → Prop) (script : List Message)
    (sends : Policy) : WellFounded fun w' w : World =>
      ∃ a, Hall.Step c kc ks work w a w' ∧ Hall.Chooses script sends w a ∧ ¬ Hall.Leaves a :=
  Subrelation.wf (fun ⟨_, h1, h2, h3⟩ => hallWork_decreases h1 h2 h3)
    (InvImage.wf (hallWork script) (Prod.lex ⟨_, Nat.lt_wfRel.wf⟩ ⟨_, (Prod.lex ⟨_, Nat.lt_wfRel.wf⟩ ⟨_, (Prod.lex ⟨_,
      (Prod.lex ⟨_, Nat.lt_wfRel.wf⟩ ⟨_, (Prod.lex ⟨_, Nat.lt_wfRel.wf⟩ ⟨_, Nat.lt_wfRel.wf⟩).wf⟩).wf⟩
      ⟨_, Nat.lt_wfRel.wf⟩).wf⟩).wf⟩).wf)

theorem hall_append {script : List Message} {u w x : World} {as bs : List Hall.Ev}
    (h1 : Hall.Dialog c kc ks work script sends u as w) (h2 : Hall.Dialog c kc ks work script sends w bs x) :
    Hall.Dialog c kc ks work script sends u (as ++ bs) x := by
  induction h2 with
  | nil => simpa using h1
  | snoc _ h4 h5 ih => rw [← List.append_assoc]; exact .snoc ih h4 h5

/-- It goes on until it waits, the client neither dropping anything nor exiting. -/
theorem hall_settle (c : Caps) (kc ks : Kind) (work : Request → List Message → Prop) (script : List Message)
    (sends : Policy) (w : World) : ∃ as u, Hall.Dialog c kc ks work script sends w as u ∧
      Hall.Waits c kc ks work script sends u ∧ u.client.gone = w.client.gone ∧ u.client.io.rxAlive = w.client.io.rxAlive ∧
      u.client.io.txAlive = w.client.io.txAlive := by
  refine (C126_terminates c kc ks work script sends).induction (C := fun w => ∃ as u,
    Hall.Dialog c kc ks work script sends w as u ∧ Hall.Waits c kc ks work script sends u ∧
      u.client.gone = w.client.gone ∧ u.client.io.rxAlive = w.client.io.rxAlive ∧
      u.client.io.txAlive = w.client.io.txAlive) w ?_
  intro w ih
  by_cases hq : Hall.Waits c kc ks work script sends w
  · exact ⟨[], w, .nil w, hq, rfl, rfl, rfl⟩
  simp only [Hall.Waits, Classical.not_forall, not_or] at hq
  obtain ⟨a, u, h1, h2, n1, _⟩ := hq
  obtain ⟨as, r, h3, h4, k1, k2, k3⟩ := ih u ⟨a, h1, h2, n1⟩
  have keep : u.client.gone = w.client.gone ∧ u.client.io.rxAlive = w.client.io.rxAlive ∧
      u.client.io.txAlive = w.client.io.txAlive := by
    have hs := h1.goes
    cases hs with
    | server => exact ⟨rfl, rfl, rfl⟩
    | @client ev x hm =>
      cases ha : ev.app with
      | false => obtain ⟨i1, _, i2, i3⟩ := move_keeps hm ha; exact ⟨i1, i2, i3⟩
      | true =>
        cases hm with
        | own _ hst =>
          cases hst with
          | accept m => exact ⟨rfl, rfl, rfl⟩
          | dropRx => exact absurd trivial n1
          | dropTx => exact absurd trivial n1
          | _ => cases ha
        | exit => exact absurd trivial n1
        | _ => cases ha
  exact ⟨[a] ++ as, r, hall_append (.snoc (.nil _) h1 h2) h3, h4, k1.trans keep.1, k2.trans keep.2.1, k3.trans keep.2.2⟩

/-- C126: so there is a run in which the client sends all that it has to say and is served. -/
theorem C126_reached (hc : 1 ≤ c.toRight) (hc' : 1 ≤ c.toLeft) {w0 : World} (hm : Spec.Met kc ks w0)
    (hg : w0.client.gone = false) (hr : w0.client.io.rxAlive = true) (ht : w0.client.io.txAlive = true)
    (hw : Spec.Works work) (hok : ∀ m ∈ said, Spec.Sayable m ∧ m ≠ .notification .exit)
    (hp : Spec.Patient work w0.client.io.accepted w0.client.io.delivered said sends) :
    ∃ as w, Hall.Dialog c kc ks work (w0.client.io.accepted ++ said) sends w0 as w ∧
      w.client.io.accepted = w0.client.io.accepted ++ said ∧
      ∃ (l : List (Request × List Message)) (sent : List Message), l.map (·.1) = Spec.requests (said.map Spec.heard) ∧
        (∀ x ∈ l, work x.1 x.2) ∧ Spec.Merged (l.map (·.2)) sent ∧
        w.client.io.delivered = w0.client.io.delivered ++ sent.map Spec.heard := by
  obtain ⟨as, w, h1, h2, k1, k2, k3⟩ := hall_settle c kc ks work (w0.client.io.accepted ++ said) sends w0
  obtain ⟨h3, h4⟩ := C126_served hc hc' hm hw hok hp h1 (k1.trans hg) (k2.trans hr) (k3.trans ht) h2
  exact ⟨as, w, h1, h3, h4⟩

/-! ### Two ways to go about it -/

/-- C126: with such a server a client may send all first and receive then (with the server of the README it may wait for
ever: C122). -/
theorem C126_first (hc : 1 ≤ c.toRight) (hc' : 1 ≤ c.toLeft) {w0 w : World} {as : List Hall.Ev} (hm : Spec.Met kc ks w0)
    (hw : Spec.Works work) (hok : ∀ m ∈ said, Spec.Sayable m ∧ m ≠ .notification .exit)
    (h : Hall.Dialog c kc ks work (w0.client.io.accepted ++ said) (fun _ _ => true) w0 as w) (hg : w.client.gone = false)
    (hr : w.client.io.rxAlive = true) (ht : w.client.io.txAlive = true)
    (hq : Hall.Waits c kc ks work (w0.client.io.accepted ++ said) (fun _ _ => true) w) :
    w.client.io.accepted = w0.client.io.accepted ++ said ∧
    ∃ (l : List (Request × List Message)) (sent : List Message), l.map (·.1) = Spec.requests (said.map Spec.heard) ∧
      (∀ x ∈ l, work x.1 x.2) ∧ Spec.Merged (l.map (·.2)) sent ∧
      w.client.io.delivered = w0.client.io.delivered ++ sent.map Spec.heard :=
  C126_served hc hc' hm hw hok (fun _ _ _ _ h => by cases h) h hg hr ht hq

/-- The client receives as long as it has received fewer messages than it has sent requests (that the server hears as
such), from here on. Specification about bsp-server/src/lib.rs:37-40. -/
def Spec.inTurn (a0 d0 : List Message) : Policy := fun sent received =>
  decide ((Spec.requests ((sent.drop a0.length).map Spec.heard)).length ≤ received.length - d0.length)

omit [LawfulExt] [Dbg] [FloatText] in
theorem flatten_long {α β : Type} (l : List (α × List β)) (h : ∀ x ∈ l, x.2 ≠ []) :
    l.length ≤ (l.map (·.2)).flatten.length := by
  induction l with
  | nil => simp
  | cons x l ih =>
    have h1 := ih fun y hy => h y (by simp [hy])
    have h2 := List.length_pos_iff.2 (h x (by simp))
    simp only [List.map_cons, List.flatten_cons, List.length_append, List.length_cons]
    omega

omit [Dbg] [FloatText] in
/-- C126: if every thread sends something, a client may wait for one message for each of its requests before it goes on. -/
theorem C126_patient (hne : ∀ r ms, work r ms → ms ≠ [])
    (a0 d0 said : List Message) : Spec.Patient work a0 d0 said (Spec.inTurn a0 d0) := by
  intro a d _ _ h l h1 h2
  have h3 := flatten_long l fun x hx => hne _ _ (h2 x hx)
  simp only [Spec.inTurn, List.drop_left, List.length_append, decide_eq_false_iff_not] at h
  rw [← h1, List.length_map] at h
  omega

end
section
attribute [local instance] Ext.sample FloatText.sample Dbg.sample

/-- Every thread sends two notifications. -/
def noteWork (_ : Request) (ms : List Message) : Prop := ms = [.notification .initialized, .notification .initialized]

theorem noteWorks : Spec.Works noteWork := by
  refine ⟨fun _ => ⟨_, rfl⟩, ?_⟩
  rintro r ms rfl m hm
  have : m = .notification .initialized := by simpa using hm
  rw [this]
  exact ⟨samplePlan.sayable _ (by simp [sampleSaid]), by simp⟩

/-- Nothing has been sent yet. -/
def hallStart : World := { client := {}, server := { io := {} } }

theorem hallStart_met (kc ks : Kind) : Spec.Met kc ks hallStart :=
  ⟨.start, rfl, rfl, rfl, ⟨rfl, rfl⟩, ⟨rfl, rfl⟩, ⟨rfl, rfl⟩, rfl, rfl, by simp [hallStart]⟩

theorem many_ok (n : Nat) : ∀ m ∈ manySaid n, Spec.Sayable m ∧ m ≠ .notification .exit :=
  fun m hm => ⟨(manyPlan n).sayable m hm, fun h => (manyPlan n).noExit (h ▸ hm)⟩

theorem many_requests (n : Nat) : (Spec.requests ((manySaid n).map Spec.heard)).length = n + 3 := by
  rw [(manyPlan n).heard, many_session]
  induction n with
  | zero => rfl
  | succ n ih => rw [List.replicate_succ, List.cons_append]; simp only [Spec.requests, List.length_cons, ih]

/-- Beside C126_first: a session that a client with one thread, which sends all first, never gets through with the server of
the README, and gets through with a server that has a thread for each request. -/
example (c : Caps) (hc : 1 ≤ c.toRight) (hc' : 1 ≤ c.toLeft) (kc ks : Kind) : ∃ script : List Message,
    (∃ as w, Flow.Turns c kc ks sampleHandler script {} as w ∧ Flow.Stuck c kc ks sampleHandler script w ∧
      w.client.io.delivered = []) ∧
    (∃ as w, Hall.Dialog c kc ks noteWork script (fun _ _ => true) hallStart as w ∧ w.client.io.accepted = script ∧
      w.client.io.delivered.length = 2 * (Spec.requests (script.map Spec.heard)).length) := by
  generalize hn : 2 * c.toRight / 21 + 2 * c.toLeft / 21 + 6 = n
  have hp := manyPlan n
  refine ⟨manySaid n, ?_, ?_⟩
  · obtain ⟨as, w, h1, h2, k1, k2, k3⟩ := turns_settle c kc ks sampleHandler (manySaid n) {}
    obtain ⟨_, h4, _, _⟩ := C122_stuck hc hc' hp h1 k1 k2 k3 h2
      (by rw [many_answers]; simp only [List.length_append, List.length_replicate]; omega)
    exact ⟨as, w, h1, h2, h4⟩
  · obtain ⟨as, w, h1, h2, k1, k2, k3⟩ := hall_settle c kc ks noteWork (manySaid n) (fun _ _ => true) hallStart
    obtain ⟨h3, l, sent, h4, h5, h6, h7⟩ := C126_first (said := manySaid n) hc hc' (hallStart_met kc ks) noteWorks
      (many_ok n) h1 k1 k2 k3 h2
    refine ⟨as, w, h1, h3, ?_⟩
    rw [h7, ← h4]
    simp only [hallStart, List.nil_append, List.length_map, (merged_perm h6).length_eq]
    clear h4 h6 h7
    induction l with
    | nil => rfl
    | cons x l ih =>
      have e1 : x.2.length = 2 := by rw [show x.2 = _ from h5 x (by simp)]; rfl
      have e2 := ih fun y hy => h5 y (by simp [hy])
      simp only [List.map_cons, List.flatten_cons, List.length_append, List.length_cons, e1, e2]
      omega

/-- Beside C126_reached, C126_patient and C126_served: one request at a time, with room for one byte each way. -/
example (kc ks : Kind) : ∃ as w, Hall.Dialog ⟨1, 1⟩ kc ks noteWork (manySaid 10) (Spec.inTurn [] []) hallStart as w ∧
    w.client.io.accepted = manySaid 10 ∧ ∃ (l : List (Request × List Message)) (sent : List Message), l.length = 13 ∧
      (∀ x ∈ l, noteWork x.1 x.2) ∧ Spec.Merged (l.map (·.2)) sent ∧ w.client.io.delivered = sent.map Spec.heard := by
  obtain ⟨as, w, h1, h2, l, sent, h3, h4, h5, h6⟩ := C126_reached (c := ⟨1, 1⟩) (said := manySaid 10) (by simp) (by simp)
    (hallStart_met kc ks) rfl rfl rfl noteWorks (many_ok 10)
    (C126_patient (work := noteWork) (by rintro r ms rfl; simp) [] [] (manySaid 10))
  refine ⟨as, w, h1, h2, l, sent, ?_, h4, h5, by simpa [hallStart] using h6⟩
  have := congrArg List.length h3
  rw [many_requests, List.length_map] at this
  exact this

/-- Beside C126_met: with room for one byte each way a client says the session of C97 and all comes to rest; then, the server
having threads from now on, it sends ten requests at once, and receives the twenty messages of the ten threads. -/
example (kc ks : Kind) : ∃ as w, Flow.Steps ⟨1, 1⟩ kc ks sampleHandler {} as w ∧ w.server.app = .idle ∧
    ∃ bs u, Hall.Dialog ⟨1, 1⟩ kc ks noteWork
      (w.client.io.accepted ++ List.replicate 10 (.request (.buildTargetSources (.i32 0) ⟨[]⟩))) (fun _ _ => true)
      { client := w.client, server := { io := w.server.io } } bs u ∧
      u.client.io.delivered.length = w.client.io.delivered.length + 20 := by
  obtain ⟨as, w, h, h1, h2, h3, h4, h5⟩ := flow_says (c := ⟨1, 1⟩) (by simp) (by simp) samplePlan kc ks sampleSaid.length (by omega)
  rw [List.take_length] at h4
  obtain ⟨h6, _, h7⟩ := C126_met (c := ⟨1, 1⟩) (by simp) (by simp) samplePlan h h1 h2 h3 h4 h5
  refine ⟨as, w, h, h6, ?_⟩
  have hok : ∀ m ∈ List.replicate 10 (Message.request (.buildTargetSources (.i32 0) ⟨[]⟩)),
      Spec.Sayable m ∧ m ≠ .notification .exit := by
    intro m hm
    rw [(List.mem_replicate.1 hm).2]
    exact ⟨samplePlan.sayable _ (by simp [sampleSaid]), by simp⟩
  obtain ⟨bs, u, h8, _, l, sent, h9, h10, h11, h12⟩ := C126_reached (c := ⟨1, 1⟩)
    (said := List.replicate 10 (.request (.buildTargetSources (.i32 0) ⟨[]⟩))) (sends := fun _ _ => true) (by simp) (by simp)
    h7 h1 h2 h3 noteWorks hok (fun _ _ _ _ h => by cases h)
  refine ⟨bs, u, h8, ?_⟩
  have hl : l.length = 10 := by
    have := congrArg List.length h9
    rw [List.length_map] at this
    rw [this]; rfl
  have hsum : ∀ l : List (Request × List Message), (∀ x ∈ l, noteWork x.1 x.2) →
      (l.map (·.2)).flatten.length = 2 * l.length := by
    intro l h
    induction l with
    | nil => rfl
    | cons x l ih =>
      have e1 : x.2.length = 2 := by rw [show x.2 = _ from h x (by simp)]; rfl
      have e2 := ih fun y hy => h y (by simp [hy])
      simp only [List.map_cons, List.flatten_cons, List.length_append, List.length_cons, e1, e2]
      omega
  rw [h12, List.length_append, List.length_map, (merged_perm h11).length_eq, hsum l h10, hl]

/-- Beside C126_terminates: no such client goes on for ever. -/
example (c : Caps) (kc ks : Kind) (script : List Message) (sends : Policy) : ¬ ∃ f : Nat → World, ∀ n, ∃ a,
    Hall.Step c kc ks noteWork (f n) a (f (n + 1)) ∧ Hall.Chooses script sends (f n) a ∧ ¬ Hall.Leaves a := by
  rintro ⟨f, hf⟩
  have hwf := C126_terminates c kc ks noteWork script sends
  have : ∀ w, ∀ n, f n ≠ w := by
    intro w
    induction w using hwf.induction with
    | _ w ih =>
      rintro n rfl
      exact ih _ (hf n) (n + 1) rfl
  exact this _ 0 rfl

end

end Bsp
