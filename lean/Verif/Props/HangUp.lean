/-
C137: a client that drops its connection without exit: whether an answer is still missing decides whether the two
processes come to an end.
-/
import Verif.Props.Gone

namespace Bsp
open Frame Json Transport
open Link (Move LinkStep Side Quiet)
open Conn (Dbg reply)
open Session (Proc App onRecv onSent toSend kindOf)
open EndToEnd (World side)

section
variable [LawfulExt] [FloatText] [Dbg] {process : InitializeBuild → Option Value}
  {said : List Message} {early : List Request} {id : RequestId} {ip : InitializeBuild} {v : Value} {pre : List Message}

/-- While the side of the client is not closed, the server is in its loop. -/
structure Held (w : World) : Prop where
  alive : w.server.exit = none
  goes : ∀ r, w.server.app ≠ .ended r
  readS : w.server.io.reader.ended = false

omit [Dbg] in
/-- A reader that has ended although its input has not: it has read a message that nobody receives. -/
theorem undelivered {ka kb : Kind} {p : Pair} (h : PairReachable ka kb p) (ha : ∀ m ∈ p.a.accepted, Spec.Sayable m)
    (hn : Message.notification .exit ∉ p.a.accepted) (hup : p.b.inEnd = none) (he : p.b.reader.ended = true) :
    p.b.reader = .panicked ∧ p.b.delivered.length < p.a.accepted.length ∧
    ∃ m used, p.b.arrived = used ++ p.b.unread ∧ Spec.Carries used (p.b.delivered ++ [m]) := by
  obtain ⟨h1, h2, h3, _⟩ := pair_inv h
  obtain ⟨more, hm⟩ := h3.trans (C53_output h1).1
  have key : ∀ ms stop, Spec.Input p.b ms stop → stop = .eof := by
    intro ms stop hi
    simp only [Spec.Input, hup] at hi
    have := hi more false
    rw [hm, C13_heard_stream _ ha] at this
    cases this; rfl
  cases e : p.b.reader with
  | reading => rw [e] at he; cases he
  | sending m => rw [e] at he; cases he
  | failed => exact absurd e (C56_heard_no_error h ha hup).1
  | done =>
    exfalso
    rcases C55_done h2 e with ⟨ms, h5⟩ | ⟨h5, _⟩
    · have : Message.notification .exit ∈ p.b.delivered := by rw [h5]; simp
      obtain ⟨m, hm, he⟩ := List.mem_map.1 ((C56_heard h ha).subset this)
      rw [heard_exit he] at hm
      exact hn hm
    · rw [hup] at h5; cases h5
  | panicked =>
    refine ⟨rfl, ?_⟩
    rcases C55_panic h2 e with ⟨_, m, used, h5, h6⟩ | ⟨_, stop, h4, h5⟩ | h4
    · refine ⟨?_, m, used, h5, h6⟩
      rw [h5, List.append_assoc] at hm
      have h7 := C13_heard_stream _ ha
      rw [← hm, readAll_carries h6] at h7
      have := congrArg (fun x : List Message × Stop => x.1.length) h7
      simp only [List.length_append, List.length_map, List.length_singleton] at this
      omega
    · have := key _ _ h5; subst this; exact h4.elim
    · cases key _ _ h4

theorem held_step (hp : Spec.Plan process said early id ip v pre) {kc ks : Kind} {w w' : World}
    {as : List EndToEnd.Ev} {a : EndToEnd.Ev} (h : EndToEnd.Steps kc ks process {} as w)
    (hs : EndToEnd.Step kc ks process w a w') (hc : w'.client.closed kc = false)
    (hsaid : w'.client.io.accepted <+: said) (ih : Held w) : Held w' := by
  cases hs with
  | client hm => exact ⟨ih.alive, ih.goes, ih.readS⟩
  | @server a p hst hpe =>
    obtain ⟨hl', bs', hss'⟩ := world_link (EndToEnd.Steps.snoc h (.server hst hpe))
    have pair' := link_pair hl'
    have okA : ∀ m ∈ w.client.io.accepted, Spec.Sayable m := fun m hm => hp.sayable m (hsaid.subset hm)
    have nexA : Message.notification .exit ∉ w.client.io.accepted := fun hm => hp.noExit (hsaid.subset hm)
    obtain ⟨inS, wS⟩ := (link_blame hl').2 hc
    have wrote' := session_wrote hss' wS
    have rxS : w.server.io.rxAlive = true := by
      obtain ⟨_, bs, hss⟩ := world_link h
      cases e : w.server.io.rxAlive with
      | true => rfl
      | false => obtain ⟨r, h3⟩ := (mainInv hss).gone (.inl e); exact absurd h3 (ih.goes r)
    have rx' : p.io.rxAlive = true := by
      cases hst with
      | io _ i2 i3 => exact (io_same i2 i3).2.2.1.trans rxS
      | recv _ _ i2 => cases i2; exact rxS
      | send _ _ i2 => cases i2; exact rxS
      | dropRx _ i1 _ => exact absurd i1 (ih.goes _)
      | _ => exact rxS
    have readS : p.io.reader.ended = false := open_reader pair' okA nexA inS rx'
    have goes : ∀ r, p.app ≠ .ended r := by
      intro r hr
      have hd : p.io.delivered <+: (said ++ [Message.notification .exit]).map Spec.heard := by
        refine (C56_heard pair' okA).trans ?_
        obtain ⟨t, hh⟩ := hsaid
        have hh : w.client.io.accepted ++ t = said := hh
        simp only [linkOf]
        rw [← hh, List.map_append, List.map_append, List.append_assoc]
        exact List.prefix_append _ _
      obtain ⟨s1, s2, _⟩ := plan_stays hp hd
      cases (mainInv hss').at' (no_fail hss' wrote') with
      | rest h1 _ => exact s1 r (h1.symm.trans hr)
      | sending h1 => rw [hr] at h1; cases h1
      | late h1 => exact s2 h1
      | closed _ _ h3 => exact absurd h3 (by simp only [readS]; simp)
    refine ⟨?_, goes, readS⟩
    cases e : p.exit with
    | none => rfl
    | some b => obtain ⟨_, r, h3, _⟩ := (mainInv hss').exits b e; exact absurd h3 (goes r)

theorem held (hp : Spec.Plan process said early id ip v pre) {kc ks : Kind} {w : World} {as : List EndToEnd.Ev}
    (h : EndToEnd.Steps kc ks process {} as w) (hc : w.client.closed kc = false)
    (hsaid : w.client.io.accepted <+: said) : Held w := by
  generalize hw : ({} : World) = w0 at h
  induction h with
  | nil => subst hw; exact ⟨rfl, by simp, rfl⟩
  | @snoc as u a w' h1 hs ih =>
    subst hw
    have hcs : u.client.closed kc = false ∧ u.client.io.accepted <+: said := by
      cases hs with
      | client hm =>
        have g := move_grows hm
        refine ⟨?_, g.accepted.trans hsaid⟩
        cases e : u.client.closed kc with
        | false => rfl
        | true => have := grows_closed g e; rw [hc] at this; cases this
      | server => exact ⟨hc, hsaid⟩
    exact held_step hp h1 hs hc hsaid (ih hcs.1 hcs.2)

/-- What the server has sent are answers. -/
theorem held_sent (hp : Spec.Plan process said early id ip v pre) {kc ks : Kind} {w : World} {as : List EndToEnd.Ev}
    (h : EndToEnd.Steps kc ks process {} as w) (hsaid : w.client.io.accepted <+: said) :
    w.server.io.accepted <+: Spec.answers process (Spec.session early id ip pre) := by
  obtain ⟨hl, bs, hss⟩ := world_link h
  have okA : ∀ m ∈ w.client.io.accepted, Spec.Sayable m := fun m hm => hp.sayable m (hsaid.subset hm)
  refine (mainInv hss).sent.trans ?_
  rw [← answers_eq]
  refine answers_prefix ((C56_heard (link_pair hl) okA).trans ?_)
  obtain ⟨t, hh⟩ := hsaid
  rw [← hp.heard, ← hh, List.map_append]
  exact List.prefix_append _ _

/-- The reader of the client ends only in a panic, over an answer that the client does not receive. -/
theorem hung_reader (hp : Spec.Plan process said early id ip v pre) {kc ks : Kind} {w : World} {as : List EndToEnd.Ev}
    (h : EndToEnd.Steps kc ks process {} as w) (hg : w.client.gone = false) (hsaid : w.client.io.accepted <+: said)
    (he : w.client.io.reader.ended = true) :
    w.client.io.reader = .panicked ∧ w.client.io.delivered.length < w.server.io.accepted.length ∧
    ∃ m used, w.client.io.arrived = used ++ w.client.io.unread ∧
      Spec.Carries used (w.client.io.delivered ++ [m]) := by
  generalize hw : ({} : World) = w0 at h
  induction h with
  | nil => subst hw; cases he
  | @snoc as u a w' h1 hs ih =>
    subst hw
    have h' := EndToEnd.Steps.snoc h1 hs
    have hs0 := hs
    cases hs with
    | @client ev c hm =>
      have g := move_grows hm
      have hg0 : u.client.gone = false := by
        cases e : u.client.gone with
        | false => rfl
        | true => have := g.gone e; rw [hg] at this; cases this
      have hsaid0 := g.accepted.trans hsaid
      by_cases he0 : u.client.io.reader.ended = true
      · obtain ⟨i1, i2, m, used, i3, i4⟩ := ih hg0 hsaid0 he0
        refine ⟨(g.reader he0).trans i1, ?_⟩
        have : c.io.delivered = u.client.io.delivered ∧ c.io.arrived = used ++ c.io.unread := by
          cases hm with
          | own _ hst _ _ _ =>
            cases hst with
            | deliver m i5 => rw [i5] at i1; cases i1
            | read r i5 => rw [i5] at i1; cases i1
            | arrive => simp_all
            | _ => exact ⟨rfl, i3⟩
          | arrive _ _ _ hst => cases hst; exact ⟨rfl, by simp [i3]⟩
          | fin _ _ _ hst => cases hst; exact ⟨rfl, i3⟩
          | reset _ _ _ _ hst => cases hst; exact ⟨rfl, i3⟩
          | fails _ _ _ _ hst => cases hst; exact ⟨rfl, i3⟩
          | exit => exact ⟨rfl, i3⟩
        rw [this.1]; exact ⟨i2, m, used, this.2, i4⟩
      · have hc0 : u.client.closed kc = false := by simp [Side.closed, hg0, he0]
        have hh := held hp h1 hc0 hsaid0
        obtain ⟨hl, _⟩ := world_link h'
        have hcs : (side u.server).closed ks = false := by simp [side, Side.closed, hh.alive, hh.readS]
        have hin : c.io.inEnd = none := ((link_blame hl).1 hcs).1
        have hacc := held_sent hp h' hsaid
        exact undelivered (pair_swap (link_pair hl)) (fun m hm => (plan_answers hp m (hacc.subset hm)).1)
          (fun hm => (plan_answers hp _ (hacc.subset hm)).2 rfl) hin he
    | @server a p hst hpe =>
      obtain ⟨i1, i2, i3⟩ := ih hg hsaid he
      refine ⟨i1, Nat.lt_of_lt_of_le i2 ?_, i3⟩
      rcases (server_move hst hpe).2 with hm | ⟨ev, hm⟩
      · rw [show p.io = u.server.io from congrArg Side.io hm]; exact Nat.le_refl _
      · exact (move_grows hm).accepted.length_le

/-- A server whose client is closed has exited, when nothing can happen any more. -/
theorem closed_server {kc ks : Kind} {w : World} {as : List EndToEnd.Ev}
    (h : EndToEnd.Steps kc ks process {} as w) (hc : w.client.closed kc = true)
    (hq : EndToEnd.Quiet kc ks process w) : ∃ b, w.server.exit = some b := by
  obtain ⟨hl, bs, hs⟩ := world_link h
  cases hex : w.server.exit with
  | some b => exact ⟨b, rfl⟩
  | none =>
  rw [← hex]
  refine C108_exits hs ?_ (quiet_server hq)
  obtain ⟨_, _, p3, _⟩ := pair_inv (link_pair hl)
  simp only [linkOf, side] at p3
  intro he
  obtain ⟨t, ht⟩ := p3
  have go : ∀ {act s'}, Transport.Step ks w.server.io act s' → kindOf act = some .peer →
      Move ks kc (side w.server) w.client (.act act) (side { w.server with io := s' }) → False := by
    intro act s' h1 h2 h3
    have := hq _ _ (.server (.io hex h1 h2) (fun _ => ⟨act, h2, h3⟩))
    cases this
  by_cases hne : t = []
  · rw [hne, List.append_nil] at ht
    have hs := Transport.Step.hangUp (k := ks) w.server.io false he
    exact go hs rfl (by
      simp only [side, hex]
      exact .fin rfl hc ht hs)
  · have hs := Transport.Step.arrive (k := ks) w.server.io t he
    exact go hs rfl (by
      simp only [side, hex]
      exact .arrive rfl hne (by rw [ht]; exact List.prefix_refl _) hs)

/-- The answers of a session, and how many there are. -/
theorem plan_served (hp : Spec.Plan process said early id ip v pre) :
    Spec.Served early id v (Spec.requests pre) (Spec.answers process (Spec.session early id ip pre)) ∧
    (Spec.answers process (Spec.session early id ip pre)).length = early.length + 1 + (Spec.requests pre).length := by
  rw [answers_eq, feed_session hp.refused hp.accepts (plan_pre hp).1]
  exact ⟨⟨early.map refusal, (Spec.requests pre).map reply, rfl, refusals _, replies _⟩, by simp; omega⟩

omit [FloatText] [Dbg] in
/-- How many answers there are in a session. -/
theorem served_length {later : List Request} {ms : List Message} (h : Spec.Served early id v later ms) :
    ms.length = early.length + 1 + later.length := by
  obtain ⟨refs, rs, rfl, r1, r2⟩ := h
  have : rs.length = later.length := by
    induction r2 with
    | nil => rfl
    | cons _ _ ih => simp [ih]
  simp only [List.length_append, List.length_singleton, this, r1.length]

/-- A client that has sent everything, and whose reader waits for input when nothing can happen any more, has received
all the answers. -/
theorem hung_all (hp : Spec.Plan process said early id ip v pre) {kc ks : Kind} {w : World} {as : List EndToEnd.Ev}
    (h : EndToEnd.Steps kc ks process {} as w) (hg : w.client.gone = false) (ht : w.client.io.txAlive = false)
    (hs : w.client.io.accepted = said) (hr : w.client.io.reader = .reading)
    (hq : EndToEnd.Quiet kc ks process w) :
    w.client.io.delivered.length = early.length + 1 + (Spec.requests pre).length := by
  have hsaid : w.client.io.accepted <+: said := by rw [hs]; exact List.prefix_refl _
  have hcc : w.client.closed kc = false := by simp [Side.closed, hg, hr, Reader.ended]
  have hh := held hp h hcc hsaid
  obtain ⟨hl, bs, hss⟩ := world_link h
  have hpair := link_pair hl
  obtain ⟨p1, p2, p3, p4⟩ := pair_inv hpair
  have hcs : (side w.server).closed ks = false := by simp [side, Side.closed, hh.alive, hh.readS]
  obtain ⟨inC, wC1, wC2⟩ := (link_blame hl).1 hcs
  obtain ⟨inS, wS⟩ := (link_blame hl).2 hcc
  simp only [linkOf, side] at inC wC1 wC2 inS wS
  have wrote := session_wrote hss wS
  have hacc := held_sent hp h hsaid
  have okA : ∀ m ∈ w.client.io.accepted, Spec.Sayable m := fun m hm => hp.sayable m (hsaid.subset hm)
  have noC : ∀ {act io}, Link.Ev.app (.act act) = false →
      ¬ Move kc ks w.client (side w.server) (.act act) { w.client with io } := by
    intro act io h1 h2
    have : Link.Ev.app (.act act) = true := hq _ _ (.client h2)
    rw [h1] at this; cases this
  have noS : ∀ {a q}, Session.Step ks process w.server a q → a = .thread ∨ a = .main → False := by
    intro a q hs ha
    have := hq _ _ (.server hs (by rcases ha with rfl | rfl <;> simp))
    rcases ha with rfl | rfl <;> cases this
  rcases C71_nothing_pending hss wrote (quiet_server hq) with ⟨b, hb⟩ | ⟨h1, _, _, h4⟩
  · rw [hh.alive] at hb; cases hb
  have rxS : w.server.io.rxAlive = true := by
    cases e : w.server.io.rxAlive with
    | true => rfl
    | false => obtain ⟨r, h3⟩ := (mainInv hss).gone (.inl e); exact absurd h3 (hh.goes r)
  have wC : w.client.io.writer = .done := by
    have := quiet_client_writer hq hg ht
    cases e : w.client.io.writer with
    | failed => exact absurd e wC1
    | panicked => exact absurd e wC2
    | done => rfl
    | _ => simp [e, Writer.ended] at this
  have outC := written_all p1 (.inr wC)
  have arrS : w.server.io.arrived = w.client.io.out := by
    obtain ⟨t, ht'⟩ := p3
    simp only [linkOf, side] at ht'
    by_cases hne : t = []
    · rw [← ht', hne, List.append_nil]
    · have hs := Transport.Step.arrive (k := ks) w.server.io t inS
      have := hq _ _ (.server (.io hh.alive hs rfl) (fun _ => ⟨_, rfl,
        .arrive (by simp [side, hh.alive]) hne (by simp only [side]; rw [ht']; exact List.prefix_refl _) hs⟩))
      cases this
  have delS : w.server.io.delivered = said.map Spec.heard := by
    rw [← hs]
    cases e : w.server.io.reader with
    | sending m => exact (noS (.recv hh.alive h1 (.deliver _ m e rxS)) (.inr rfl)).elim
    | reading =>
      exact C56_heard_all hpair okA (arrS.trans outC) e (by
        rintro ⟨s', hs'⟩
        exact noS (.io hh.alive hs' rfl) (.inl rfl))
    | _ => have := hh.readS; simp [e, Reader.ended] at this
  have accS : w.server.io.accepted = Spec.answers process (Spec.session early id ip pre) := by
    have hat := (mainInv hss).at' (no_fail hss wrote)
    rw [delS, hp.heard, ← answers_eq] at hat
    cases hat with
    | rest _ h6 => exact h6
    | sending h6 => rw [receives_toSend h1] at h6; cases h6
    | late _ h6 => exact absurd h6 (hh.goes _)
    | closed _ _ h6 => exact absurd h6 (by rw [hh.readS]; simp)
  have arrC : w.client.io.arrived = w.server.io.out := by
    obtain ⟨t, ht'⟩ := p4
    simp only [linkOf, side] at ht'
    by_cases hne : t = []
    · rw [← ht', hne, List.append_nil]
    · exact (noC rfl (.arrive hg hne (by simp only [side]; rw [ht']; exact List.prefix_refl _)
        (.arrive _ t inC))).elim
  have delC : w.client.io.delivered = w.server.io.accepted.map Spec.heard := by
    refine C56_heard_all (pair_swap hpair) (fun m hm => (plan_answers hp m (hacc.subset hm)).1)
      (arrC.trans (h4.trans ?_)) hr (by
      rintro ⟨s', hs'⟩
      exact noC rfl (.own hg hs' (by simp) (by simp) (by simp)))
    rw [delS, hp.heard, ← accS]; rfl
  rw [delC, accS, List.length_map, (plan_served hp).2]

/-- Nothing is received after the receiver has been dropped. -/
theorem deaf_keeps {kc ks : Kind} {w u : World} {as : List EndToEnd.Ev} (h : EndToEnd.Steps kc ks process w as u)
    (hr : w.client.io.rxAlive = false) :
    u.client.io.rxAlive = false ∧ u.client.io.delivered = w.client.io.delivered := by
  induction h with
  | nil => exact ⟨hr, rfl⟩
  | @snoc as u a w' h1 hs ih =>
    obtain ⟨i1, i2⟩ := ih
    cases hs with
    | server => exact ⟨i1, i2⟩
    | @client ev c hm =>
      rw [← i2]
      cases hm with
      | own _ hst =>
        cases hst with
        | deliver m _ i3 => rw [i1] at i3; cases i3
        | dropRx => exact ⟨rfl, rfl⟩
        | read r _ _ => cases r <;> exact ⟨i1, rfl⟩
        | _ => exact ⟨i1, rfl⟩
      | arrive _ _ _ hst => cases hst; exact ⟨i1, rfl⟩
      | fin _ _ _ hst => cases hst; exact ⟨i1, rfl⟩
      | reset _ _ _ _ hst => cases hst; exact ⟨i1, rfl⟩
      | fails _ _ _ _ hst => cases hst; exact ⟨i1, rfl⟩
      | exit => exact ⟨i1, rfl⟩

/-- C137: a client that uses this library has gone through a session with the server of the README, has sent no exit,
and has dropped its connection, sender and receiver.  What it has received until then are answers of the server, in order,
and their number decides what happens.  When nothing can happen any more: if it had received one answer to each
request that the server has heard, neither `join` returns and the server has not exited; if not, `join` of the client has
panicked, and the server has exited, if the client uses a socket (if it uses the standard streams, the server waits
until the client exits). -/
theorem C137_decided (hp : Spec.Plan process said early id ip v pre) {kc ks : Kind} {w u : World}
    {as bs : List EndToEnd.Ev} (h : EndToEnd.Steps kc ks process {} as w) (hg : w.client.gone = false)
    (hs : w.client.io.accepted = said) (hr : w.client.io.rxAlive = false) (ht : w.client.io.txAlive = false)
    (hu : EndToEnd.Steps kc ks process w bs u) (hb : ∀ e, EndToEnd.Ev.client e ∈ bs → e.app = false)
    (hq : EndToEnd.Quiet kc ks process u) :
    (∃ ms, Spec.Served early id v (Spec.requests pre) ms ∧ w.client.io.delivered <+: ms.map Message.norm) ∧
    (w.client.io.delivered.length = early.length + 1 + (Spec.requests pre).length →
      join kc u.client.io = .waiting ∧ join ks u.server.io = .waiting ∧ u.server.exit = none) ∧
    (w.client.io.delivered.length ≠ early.length + 1 + (Spec.requests pre).length →
      join kc u.client.io = .panic (utf8 "reader panicked!\n".toList) ∧
      (kc = .socket → ∃ b, u.server.exit = some b) ∧ (kc = .stdio → u.server.exit = none)) := by
  obtain ⟨k1, k2, k3, k4⟩ := world_keeps hu hb
  obtain ⟨_, kd⟩ := deaf_keeps hu hr
  have h' := world_append h hu
  have hg' := k1.trans hg
  have hs' : u.client.io.accepted = said := k2.trans hs
  have hr' := k3.trans hr
  have ht' := k4.trans ht
  have hsaid : u.client.io.accepted <+: said := by rw [hs']; exact List.prefix_refl _
  have hacc := held_sent hp h' hsaid
  obtain ⟨hl, _⟩ := world_link h'
  have wait : ∀ {k : Kind} {s : State}, s.reader.ended = false → join k s = .waiting := by
    intro k s h1
    unfold join
    cases e : s.reader <;> simp [e, Reader.ended] at h1 ⊢
  have le : u.server.io.accepted.length ≤ early.length + 1 + (Spec.requests pre).length := by
    rw [← (plan_served hp).2]; exact hacc.length_le
  refine ⟨⟨_, (plan_served hp).1, ?_⟩, ?_, ?_⟩
  · rw [← kd]
    refine (C56_heard (pair_swap (link_pair hl)) (fun m hm => (plan_answers hp m (hacc.subset hm)).1)).trans ?_
    simp only [linkOf, side]
    have h2 : u.server.io.accepted.map Spec.heard = u.server.io.accepted.map Message.norm :=
      List.map_congr_left (fun m hm => heard_wireOk (by
        obtain ⟨r, rfl⟩ := plan_response hp m (hacc.subset hm)
        trivial))
    rw [h2]
    exact hacc.map _
  · intro hn
    have he : u.client.io.reader.ended = false := by
      cases e : u.client.io.reader.ended with
      | false => rfl
      | true =>
        have := (hung_reader hp h' hg' hsaid e).2.1
        rw [kd] at this
        omega
    have hh := held hp h' (by simp [Side.closed, hg', he]) hsaid
    exact ⟨wait he, wait hh.readS, hh.alive⟩
  · intro hn
    have he : u.client.io.reader.ended = true := by
      cases e : u.client.io.reader with
      | reading =>
        have := hung_all hp h' hg' ht' hs' e hq
        rw [kd] at this
        exact absurd this hn
      | sending m =>
        have := hq _ _ (.client (.own hg' (.undeliverable _ m e hr') (by simp) (by simp) (by simp)))
        cases this
      | _ => rfl
    have hw := quiet_client_writer hq hg' ht'
    have hp' := (hung_reader hp h' hg' hsaid he).1
    refine ⟨?_, ?_, ?_⟩
    · unfold join
      simp [hp', hw]
    · rintro rfl
      exact closed_server h' (by simp [Side.closed, he, hw]) hq
    · rintro rfl
      exact (held hp h' (by simp [Side.closed, hg']) hsaid).alive

/-- C137: and it comes to one of the two: from there a run of the threads and the network leads to such an end (and by
`C96_terminates` there is no infinite one). -/
theorem C137_ends (hp : Spec.Plan process said early id ip v pre) {kc ks : Kind} {w : World}
    {as : List EndToEnd.Ev} (h : EndToEnd.Steps kc ks process {} as w) (hg : w.client.gone = false)
    (hs : w.client.io.accepted = said) (hr : w.client.io.rxAlive = false) (ht : w.client.io.txAlive = false) :
    ∃ bs u, EndToEnd.Steps kc ks process w bs u ∧ (∀ a ∈ bs, a.free = false) ∧ EndToEnd.Quiet kc ks process u ∧
      (join kc u.client.io = .waiting ↔
        w.client.io.delivered.length = early.length + 1 + (Spec.requests pre).length) := by
  obtain ⟨bs, u, h1, h2, h3⟩ := world_settles kc ks process w
  obtain ⟨_, d1, d2⟩ := C137_decided hp h hg hs hr ht h1 (fun e he => h3 _ he) h2
  refine ⟨bs, u, h1, h3, h2, ?_, fun hn => (d1 hn).1⟩
  intro hj
  apply Classical.byContradiction
  intro hn
  rw [(d2 hn).1] at hj
  cases hj

end

/-! ### Concrete cases -/

section
attribute [local instance] Ext.sample FloatText.sample Dbg.sample

/-- Beside C137: a client that drops its connection as soon as it has sent its messages, before any answer: both come to
an end, the client in a panic. -/
example (ks : Kind) : ∃ as w, EndToEnd.Steps .socket ks sampleHandler {} as w ∧ w.client.gone = false ∧
    join .socket w.client.io = .panic (utf8 "reader panicked!\n".toList) ∧ ∃ b, w.server.exit = some b := by
  obtain ⟨as, h⟩ := says_run .socket ks sampleHandler sampleSaid
  have h0 := EndToEnd.Steps.snoc (EndToEnd.Steps.snoc h
    (.client (.own rfl (.dropRx _) (by simp) (by simp) (by simp))))
    (.client (.own rfl (.dropTx _) (by simp) (by simp) (by simp)))
  obtain ⟨bs, u, h1, h2, h3⟩ := world_settles .socket ks sampleHandler _
  have k1 := (world_keeps h1 (fun e he => h3 _ he)).1
  obtain ⟨_, _, d⟩ := C137_decided samplePlan h0 rfl rfl rfl rfl h1 (fun e he => h3 _ he) h2
  obtain ⟨d1, d2, _⟩ := d (by decide)
  exact ⟨_, u, world_append h0 h1, k1, d1, d2 rfl⟩

/-- Beside C137: a client that first receives all the answers and then drops its connection: neither comes to an end. -/
example (kc ks : Kind) : ∃ as w, EndToEnd.Steps kc ks sampleHandler {} as w ∧ w.client.io.txAlive = false ∧
    EndToEnd.Quiet kc ks sampleHandler w ∧ join kc w.client.io = .waiting ∧ w.server.exit = none := by
  obtain ⟨as, h⟩ := says_run kc ks sampleHandler sampleSaid
  obtain ⟨bs, u, h1, h2, h3⟩ := world_settles kc ks sampleHandler _
  obtain ⟨k1, k2, k3, k4⟩ := world_keeps h1 (fun e he => h3 _ he)
  obtain ⟨ms, m1, m2⟩ := C97_rest samplePlan (world_append h h1) k1 k3 k2 h2
  have h0 := EndToEnd.Steps.snoc (EndToEnd.Steps.snoc (world_append h h1)
    (.client (.own k1 (.dropRx _) (by simp) (by simp) (by simp))))
    (.client (.own k1 (.dropTx _) (by simp) (by simp) (by simp)))
  obtain ⟨cs, x, e1, e2, e3⟩ := world_settles kc ks sampleHandler _
  obtain ⟨j1, j2, j3, j4⟩ := world_keeps e1 (fun e he => e3 _ he)
  obtain ⟨_, d, _⟩ := C137_decided samplePlan h0 k1 k2 rfl rfl e1 (fun e he => e3 _ he) e2
  obtain ⟨d1, _, d3⟩ := d ((congrArg List.length m2).trans ((List.length_map _).trans (served_length m1)))
  exact ⟨_, x, world_append h0 e1, j4, e2, d1, d3⟩

/-- Beside C137_ends: a client that drops its connection before it has got an answer does not wait for ever. -/
example (kc ks : Kind) : ∃ as w, EndToEnd.Steps kc ks sampleHandler {} as w ∧ EndToEnd.Quiet kc ks sampleHandler w ∧
    join kc w.client.io ≠ .waiting := by
  obtain ⟨as, h⟩ := says_run kc ks sampleHandler sampleSaid
  have h0 := EndToEnd.Steps.snoc (EndToEnd.Steps.snoc h
    (.client (.own rfl (.dropRx _) (by simp) (by simp) (by simp))))
    (.client (.own rfl (.dropTx _) (by simp) (by simp) (by simp)))
  obtain ⟨bs, u, h1, _, h2, h3⟩ := C137_ends samplePlan h0 rfl rfl rfl rfl
  exact ⟨_, u, world_append h0 h1, h2, fun hj => absurd (h3.1 hj) (by decide)⟩

end
end Bsp
