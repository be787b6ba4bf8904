/-
C96, C97: the server of the README and a client that uses this library, connected to each other.
-/
import Verif.EndToEnd
import Verif.Props.Link

namespace Bsp
open Frame Json Transport
open Link (Move LinkStep Side)
open Conn (Dbg reply)
open Session (Proc App onRecv onSent toSend kindOf)
open EndToEnd (World side)

section
variable [LawfulExt] [Dbg] [FloatText] {process : InitializeBuild → Option Value}

/-- What the client says, and what the server hears: requests before initialize, initialize, initialized, and other
messages; the handler accepts; the answers can be carried. -/
structure Spec.Plan (process : InitializeBuild → Option Value) (said : List Message) (early : List Request)
    (id : RequestId) (ip : InitializeBuild) (v : Value) (pre : List Message) : Prop where
  sayable : ∀ m ∈ said, Spec.Sayable m
  noExit : Message.notification .exit ∉ said
  heard : said.map Spec.heard = Spec.session early id ip pre
  refused : ∀ r ∈ early, Spec.Early r
  accepts : process ip = some v
  carried : ∀ m ∈ Spec.answers process (Spec.session early id ip pre), Spec.Carried m

/-- The client is there and goes on receiving, and has sent an initial part of that. -/
structure Spec.Says (said : List Message) (w : World) : Prop where
  gone : w.client.gone = false
  rx : w.client.io.rxAlive = true
  said : w.client.io.accepted <+: said

variable {said : List Message} {early : List Request} {id : RequestId} {ip : InitializeBuild} {v : Value}
  {pre : List Message}

omit [FloatText] [Dbg] in
theorem heard_not_shutdown (m : Message) (i : RequestId) : Spec.heard m ≠ .request (.shutdown i) := by
  intro h
  cases m with
  | request r =>
    cases r <;> simp [Spec.heard, Message.norm, Request.norm] at h
    split at h <;> cases h
  | response r => simp [Spec.heard, Message.norm] at h
  | notification n => cases n <;> simp [Spec.heard, Message.norm] at h

theorem plan_pre (hp : Spec.Plan process said early id ip v pre) :
    Spec.NoShutdown pre ∧ Message.notification .exit ∉ pre := by
  have hsub : ∀ m ∈ pre, m ∈ said.map Spec.heard := by
    intro m hm
    rw [hp.heard]
    simp [Spec.session, hm]
  refine ⟨?_, ?_⟩
  · intro i hm
    obtain ⟨n, _, hn⟩ := List.mem_map.1 (hsub _ hm)
    exact heard_not_shutdown n i hn
  · intro hm
    obtain ⟨n, h1, hn⟩ := List.mem_map.1 (hsub _ hm)
    rw [heard_exit hn] at h1
    exact hp.noExit h1

/-- The server on hearing it all. -/
theorem plan_feed (hp : Spec.Plan process said early id ip v pre) :
    feed process .start ((said ++ [Message.notification .exit]).map Spec.heard) =
      (.idle, Spec.answers process (Spec.session early id ip pre)) := by
  have e : Spec.heard (Message.notification .exit) = .notification .exit := rfl
  rw [List.map_append, hp.heard, List.map_singleton, e, feed_snoc, answers_eq,
    feed_session hp.refused hp.accepts (plan_pre hp).1]
  simp [round, onRecv, toSend]

theorem plan_stays (hp : Spec.Plan process said early id ip v pre) {ms : List Message}
    (h : ms <+: (said ++ [Message.notification .exit]).map Spec.heard) :
    (∀ r, (feed process .start ms).1 ≠ .ended r) ∧ (feed process .start ms).1 ≠ .leaving ∧
    (feed process .start ms).2 <+: Spec.answers process (Spec.session early id ip pre) := by
  have hf := plan_feed hp
  refine ⟨feed_alive h (by rw [hf]; simp), feed_stays h (by rw [hf]), ?_⟩
  obtain ⟨t, ht⟩ := h
  rw [← ht, feed_append] at hf
  rw [← (Prod.mk.inj hf).2]
  exact List.prefix_append _ _

/-- The answers are responses. -/
theorem plan_response (hp : Spec.Plan process said early id ip v pre) :
    ∀ m ∈ Spec.answers process (Spec.session early id ip pre), ∃ r, m = .response r := by
  intro m hm
  rw [answers_eq, feed_session hp.refused hp.accepts (plan_pre hp).1] at hm
  simp only [List.mem_append, List.mem_map, List.mem_singleton] at hm
  rcases hm with (⟨r, _, rfl⟩ | rfl) | ⟨r, _, rfl⟩
  · exact ⟨_, rfl⟩
  · exact ⟨_, rfl⟩
  · unfold reply; split <;> exact ⟨_, rfl⟩

theorem plan_answers (hp : Spec.Plan process said early id ip v pre) :
    ∀ m ∈ Spec.answers process (Spec.session early id ip pre), Spec.Sayable m ∧ m ≠ .notification .exit := by
  intro m hm
  have hc := hp.carried m hm
  obtain ⟨r, rfl⟩ := plan_response hp m hm
  exact ⟨⟨.inl trivial, hc⟩, by simp⟩

/-! ### The two processes as a link and as a session -/

/-- A step of the server is one of its side of the connection, or changes nothing there. -/
theorem server_move {kc ks : Kind} {p q : Proc} {c : Side} {a : Session.Act} (h : Session.Step ks process p a q)
    (hp : a = .peer ∨ a = .writeFails →
      ∃ act, kindOf act = some a ∧ Move ks kc (side p) c (.act act) (side q)) :
    p.exit = none ∧ (side q = side p ∨ ∃ ev, Move ks kc (side p) c ev (side q)) := by
  cases h with
  | @io a act io' h1 h2 h3 =>
    refine ⟨h1, .inr ?_⟩
    simp only [side, h1] at hp ⊢
    cases h2 with
    | arrive bs _ => cases h3; obtain ⟨act, _, hm⟩ := hp (.inl rfl); exact ⟨_, hm⟩
    | hangUp b _ => cases h3; obtain ⟨act, _, hm⟩ := hp (.inl rfl); exact ⟨_, hm⟩
    | writeFails b _ => cases h3; obtain ⟨act, _, hm⟩ := hp (.inr rfl); exact ⟨_, hm⟩
    | deliver => cases h3
    | accept => cases h3
    | dropRx => cases h3
    | dropTx => cases h3
    | read r i1 i2 => exact ⟨_, .own rfl (.read _ r i1 i2) (by simp) (by simp) (by simp)⟩
    | undeliverable m i1 i2 => exact ⟨_, .own rfl (.undeliverable _ m i1 i2) (by simp) (by simp) (by simp)⟩
    | write a b i1 i2 => exact ⟨_, .own rfl (.write _ a b i1 i2) (by simp) (by simp) (by simp)⟩
    | written i1 => exact ⟨_, .own rfl (.written _ i1) (by simp) (by simp) (by simp)⟩
    | close i1 i2 => exact ⟨_, .own rfl (.close _ i1 i2) (by simp) (by simp) (by simp)⟩
  | recv h1 _ h2 => exact ⟨h1, .inr ⟨_, by simp only [side, h1]; exact .own rfl h2 (by simp) (by simp) (by simp)⟩⟩
  | closed h1 => exact ⟨h1, .inl rfl⟩
  | send h1 _ h2 => exact ⟨h1, .inr ⟨_, by simp only [side, h1]; exact .own rfl h2 (by simp) (by simp) (by simp)⟩⟩
  | unsent h1 => exact ⟨h1, .inl rfl⟩
  | timeout h1 => exact ⟨h1, .inl rfl⟩
  | dropRx h1 => exact ⟨h1, .inr ⟨_, by simp only [side, h1]; exact .own rfl (.dropRx _) (by simp) (by simp) (by simp)⟩⟩
  | dropTx h1 => exact ⟨h1, .inr ⟨_, by simp only [side, h1]; exact .own rfl (.dropTx _) (by simp) (by simp) (by simp)⟩⟩
  | abort h1 => exact ⟨h1, .inr ⟨_, by simp only [side, h1]; exact .exit rfl⟩⟩
  | finish h1 => exact ⟨h1, .inr ⟨_, by simp only [side, h1]; exact .exit rfl⟩⟩

/-- The state of the connection. -/
def linkOf (w : World) : Link.Link := ⟨w.client, side w.server⟩

/-- The invariant: the connection is as in C92, and the server has not failed. -/
structure Going (kc ks : Kind) (process : InitializeBuild → Option Value) (said : List Message) (bs : List Session.Act)
    (w : World) : Prop where
  sess : Session.Steps ks process {} bs w.server
  link : Link.Reachable kc ks (linkOf w)
  leaving : Spec.Leaving said (linkOf w)
  ok : w.server.exit ≠ some false
  wrote : Session.Act.writeFails ∉ bs

/-- What the server has received is what it was to hear. -/
theorem going_heard {kc ks : Kind} {w : World} {bs : List Session.Act}
    (h : Going kc ks process said bs w) :
    w.server.io.delivered <+: (said ++ [Message.notification .exit]).map Spec.heard :=
  (C56_heard (link_pair h.link) h.leaving.okA).trans (by
    obtain ⟨t, ht⟩ := h.leaving.sentA
    rw [← ht, List.map_append]
    exact List.prefix_append _ _)

/-- If the server has left the loop, it is because of exit, and without error. -/
theorem going_ended (hp : Spec.Plan process said early id ip v pre) {kc ks : Kind} {w : World} {bs : List Session.Act}
    (h : Going kc ks process said bs w) {r : Conn.Out Unit} (he : w.server.app = .ended r) :
    r = .ok () ∧ w.server.io.reader = .done ∧ Message.notification .exit ∈ w.server.io.delivered := by
  obtain ⟨s1, s2, _⟩ := plan_stays hp (going_heard h)
  cases (mainInv h.sess).at' (no_fail h.sess h.wrote) with
  | rest h1 _ => exact absurd (h1.symm.trans he) (s1 r)
  | sending h1 => rw [he] at h1; cases h1
  | late h1 => exact absurd h1 s2
  | closed h1 h2 h3 _ _ =>
    obtain ⟨h4, h5⟩ := (leave_reader h.link h.leaving (leaveInv h.link h.leaving)).2 h3
    refine ⟨?_, h4, h5⟩
    obtain ⟨_, h6, _⟩ := exit_received (link_pair h.link) h.leaving.okA h.leaving.before h.leaving.sentA h5
    obtain ⟨h7, _⟩ := exit_received (link_pair h.link) h.leaving.okA h.leaving.before h.leaving.sentA h5
    have h6 : w.server.io.delivered = w.client.io.accepted.map Spec.heard := h6
    have h7 : w.client.io.accepted = said ++ [.notification .exit] := h7
    rw [h6, h7, plan_feed hp, he] at h2
    simpa [onRecv] using h2

omit [Dbg] in
theorem exit_sayable : Spec.Sayable (.notification .exit) := ⟨.inl trivial, exit_carried⟩

theorem says_before {kc ks : Kind} {all : List Message} {w w' : World} {a : EndToEnd.Ev}
    (hs : EndToEnd.Step kc ks process w a w') (h : Spec.Says all w') : Spec.Says all w := by
  cases hs with
  | client hm =>
    have g := move_grows hm
    refine ⟨?_, g.rx h.rx, g.accepted.trans h.said⟩
    cases e : w.client.gone with
    | false => rfl
    | true =>
      have := g.gone e
      rw [h.gone] at this; cases this
  | server => exact ⟨h.gone, h.rx, h.said⟩

theorem going_step (hp : Spec.Plan process said early id ip v pre) {kc ks : Kind} {w w' : World}
    {bs : List Session.Act}
    {a : EndToEnd.Ev} (h : Going kc ks process said bs w) (hs : EndToEnd.Step kc ks process w a w')
    (ht : Spec.Says (said ++ [.notification .exit]) w') : ∃ bs', Going kc ks process said bs' w' := by
  have okA : ∀ m ∈ w'.client.io.accepted, Spec.Sayable m := by
    intro m hm
    rcases List.mem_append.1 (ht.said.subset hm) with h1 | h1
    · exact hp.sayable m h1
    · rw [List.mem_singleton.1 h1]; exact exit_sayable
  cases hs with
  | @client ev c hm =>
    exact ⟨bs, h.sess, .step h.link (.left (l := linkOf w) hm), ⟨⟨ht.gone, h.leaving.gone.2⟩, okA, h.leaving.okB, hp.noExit, ht.said, h.leaving.sentB, ht.rx,
      h.leaving.rxB⟩, h.ok, h.wrote⟩
  | @server a p hst hpe =>
    obtain ⟨hx, hm⟩ := server_move hst hpe
    have sess' := Session.Steps.snoc h.sess hst
    have link' : Link.Reachable kc ks ⟨w.client, side p⟩ := by
      rcases hm with hm | ⟨act, hm⟩
      · rw [hm]; exact h.link
      · exact .step h.link (.right (l := linkOf w) hm)
    have hdel : p.io.delivered <+: (said ++ [Message.notification .exit]).map Spec.heard :=
      (C56_heard (link_pair link') okA).trans (by
        obtain ⟨t, hh⟩ := ht.said
        rw [← hh, List.map_append]
        exact List.prefix_append _ _)
    have hacc : p.io.accepted <+: Spec.answers process (Spec.session early id ip pre) :=
      (mainInv sess').sent.trans (plan_stays hp hdel).2.2
    have grows : w.server.io.delivered <+: p.io.delivered := by
      rcases hm with hm | ⟨act, hm⟩
      · rw [show p.io = w.server.io from congrArg Side.io hm]; exact List.prefix_refl _
      · exact (move_grows hm).delivered
    have ok' : p.exit ≠ none → p.exit = some true ∧ p.io.reader = .done ∧ p.io.writer = .done := by
      intro he
      cases hst with
      | io => exact absurd hx he
      | recv => exact absurd hx he
      | closed => exact absurd hx he
      | send => exact absurd hx he
      | unsent => exact absurd hx he
      | timeout => exact absurd hx he
      | dropRx => exact absurd hx he
      | dropTx => exact absurd hx he
      | abort _ i1 i2 => exact absurd (going_ended hp h i1).1 i2
      | finish _ i1 _ _ i2 =>
        have hd := (going_ended hp h i1).2.1
        have hi := (leaveInv h.link h.leaving).wB
        have hw : w.server.io.writer = .done := by
          unfold join at i2
          rw [hd] at i2
          cases e : w.server.io.writer with
          | failed => exact absurd e hi.1
          | panicked => exact absurd e hi.2
          | done => rfl
          | _ => simp [e] at i2
        have hj : join ks w.server.io = .ok := C58_ok_iff.2 ⟨hd, hw⟩
        exact ⟨by simp [hj], hd, hw⟩
    have leaving' : Spec.Leaving said ⟨w.client, side p⟩ := by
      refine ⟨⟨ht.gone, ?_⟩, okA, fun m hm => (plan_answers hp m (hacc.subset hm)).1, hp.noExit, ht.said,
        fun hm => (plan_answers hp _ (hacc.subset hm)).2 rfl, ht.rx, ?_⟩
      · intro he
        obtain ⟨_, h1, h2⟩ := ok' (by intro e; simp [side, e] at he)
        simp [side, h1, h2, Reader.ended, Writer.ended]
      rcases h.leaving.rxB with h1 | h1
      · cases e : p.io.rxAlive with
        | true => exact .inl e
        | false =>
          refine .inr (grows.subset ?_)
          have h1 : w.server.io.rxAlive = true := h1
          have : ∃ r, w.server.app = .ended r := by
            cases hst with
            | io _ i2 i3 => have := (io_same i2 i3).2.2.1; simp only at e; rw [this, h1] at e; cases e
            | recv _ _ i2 => cases i2; simp only at e; rw [h1] at e; cases e
            | send _ _ i2 => cases i2; simp only at e; rw [h1] at e; cases e
            | dropRx _ i1 _ => exact ⟨_, i1⟩
            | _ => simp only at e; rw [h1] at e; cases e
          obtain ⟨r, hr⟩ := this
          exact (going_ended hp h hr).2.2
      · exact .inr (grows.subset h1)
    have inv' := leaveInv link' leaving'
    refine ⟨_, sess', link', leaving', ?_, ?_⟩
    · intro he
      have := (ok' (by rw [he]; simp)).1
      rw [he] at this; cases this
    · intro hw
      rcases List.mem_append.1 hw with hw | hw
      · exact h.wrote hw
      · have := List.mem_singleton.1 hw
        subst this
        cases hst with
        | io _ i2 i3 =>
          cases i2 <;> first | cases i3 | skip
          cases ks
          · exact inv'.wB.1 rfl
          · exact inv'.wB.2 rfl

theorem going (hp : Spec.Plan process said early id ip v pre) {kc ks : Kind} {w : World}
    {as : List EndToEnd.Ev} (h : EndToEnd.Steps kc ks process {} as w) (ht : Spec.Says (said ++ [.notification .exit]) w) :
    ∃ bs, Going kc ks process said bs w := by
  have key : ∀ {w0 w : World} {as}, EndToEnd.Steps kc ks process w0 as w → w0 = ({} : World) →
      Spec.Says (said ++ [.notification .exit]) w → ∃ bs, Going kc ks process said bs w := by
    intro w0 w as h
    induction h with
    | nil =>
      intro e ht
      subst e
      exact ⟨[], .nil _, .start, ⟨⟨rfl, by simp [linkOf, side]⟩, by simp [linkOf], by simp [linkOf, side], hp.noExit,
        List.nil_prefix, by simp [linkOf, side], rfl, .inl rfl⟩, by simp, by simp⟩
    | snoc _ hs ih =>
      intro e ht
      obtain ⟨bs, hg⟩ := ih e (says_before hs ht)
      exact going_step hp hg hs ht
  exact key h rfl ht

/-- When the two processes can do nothing any more, nor can the server by itself. -/
theorem quiet_server {kc ks : Kind} {w : World} (hq : EndToEnd.Quiet kc ks process w) :
    Session.Quiet ks process w.server := by
  intro a q hs
  by_cases h1 : a = .peer
  · exact .inl h1
  by_cases h2 : a = .writeFails
  · subst h2
    exfalso
    cases hs with
    | io hx hs hk =>
      cases hs with
      | writeFails b hw =>
        obtain ⟨a, s', h4, h5⟩ := writer_moves (k := ks) hw
        have := hq _ _ (.server (.io hx h4 h5) (by simp))
        cases this
      | _ => simp [kindOf] at hk
  have := hq _ _ (.server hs (by simp [h1, h2]))
  cases a <;> first | exact .inr rfl | cases this

/-- A writer of the client that has no step left has ended. -/
theorem quiet_client_writer {kc ks : Kind} {w : World} (hq : EndToEnd.Quiet kc ks process w)
    (hg : w.client.gone = false) (ht : w.client.io.txAlive = false) : w.client.io.writer.ended = true := by
  have no : ∀ {act io}, Link.Ev.app (.act act) = false → Move kc ks w.client (side w.server) (.act act) { w.client with io } →
      False := by
    intro act io h1 h2
    have := hq _ _ (.client h2)
    simp only [EndToEnd.Ev.free, h1] at this
    cases this
  cases e : w.client.io.writer with
  | idle => exact (no rfl (.own hg (.close _ e ht) (by simp) (by simp) (by simp))).elim
  | writing r =>
    cases r with
    | nil => exact (no rfl (.own hg (.written _ e) (by simp) (by simp) (by simp))).elim
    | cons c r => exact (no rfl (.own hg (.write _ [c] r e (by simp)) (by simp) (by simp) (by simp))).elim
  | _ => rfl

/-- The server, at rest, has received all that the client has sent, when the client has sent exit. -/
theorem going_exits {kc ks : Kind} {w : World} {bs : List Session.Act}
    (h : Going kc ks process said bs w) (hx : w.client.io.accepted = said ++ [.notification .exit])
    (ht : w.client.io.txAlive = false) (hq : EndToEnd.Quiet kc ks process w) :
    w.client.io.writer = .done ∧ w.server.exit = some true := by
  have hi := leaveInv h.link h.leaving
  have hpair := link_pair h.link
  obtain ⟨p1, p2, p3, p4⟩ := pair_inv hpair
  have wA : w.client.io.writer = .done := by
    have := quiet_client_writer hq h.leaving.gone.1 ht
    cases e : w.client.io.writer with
    | failed => exact absurd e hi.wA.1
    | panicked => exact absurd e hi.wA.2
    | done => rfl
    | _ => simp [e, Writer.ended] at this
  refine ⟨wA, ?_⟩
  rcases C71_nothing_pending h.sess h.wrote (quiet_server hq) with ⟨b, hb⟩ | ⟨h1, h2, _, _⟩
  · cases b with
    | true => exact hb
    | false => exact absurd hb h.ok
  exfalso
  have hex : w.server.exit = none := by
    cases e : w.server.exit with
    | none => rfl
    | some b =>
      obtain ⟨_, r, h3, _⟩ := (mainInv h.sess).exits b e
      rw [h3] at h1; cases h1
  have no : ∀ {a q}, Session.Step ks process w.server a q → a = .thread ∨ a = .main → False := by
    intro a q hs ha
    have := hq _ _ (.server hs (by rcases ha with rfl | rfl <;> simp))
    rcases ha with rfl | rfl <;> cases this
  have hend : w.server.io.reader.ended = false := by
    cases e : w.server.io.reader.ended with
    | false => rfl
    | true => exact (no (.closed hex h1 e) (.inr rfl)).elim
  have hrx : w.server.io.rxAlive = true := by
    cases e : w.server.io.rxAlive with
    | true => rfl
    | false =>
      obtain ⟨r, h3⟩ := (mainInv h.sess).gone (.inl e)
      rw [h3] at h1; cases h1
  cases e : w.server.io.reader with
  | sending m => exact no (.recv hex h1 (.deliver _ m e hrx)) (.inr rfl)
  | reading =>
    obtain ⟨t, ht'⟩ := p3
    simp only [linkOf, side] at ht'
    have harr : w.server.io.arrived = w.client.io.out := by
      by_cases hne : t = []
      · rw [← ht', hne, List.append_nil]
      · have hs := Transport.Step.arrive (k := ks) w.server.io t h2
        have := hq _ _ (.server (.io hex hs rfl) (fun _ => ⟨_, rfl,
          .arrive (by simp [side, hex]) hne (by simp only [side]; rw [ht']; exact List.prefix_refl _) hs⟩))
        cases this
    have := C56_heard_all hpair h.leaving.okA (harr.trans (C54_drained p1 wA).2) e (by
      rintro ⟨s', hs'⟩
      exact no (.io hex hs' rfl) (.inl rfl))
    simp only [linkOf, side] at this
    have hd : Message.notification .exit ∈ w.server.io.delivered := by
      rw [this, hx, List.map_append]
      exact List.mem_append_right _ (List.mem_singleton.2 rfl)
    have := (C52_exit p2 hd).1
    simp only [linkOf, side] at this
    rw [e] at this; cases this
  | _ => simp [e, Reader.ended] at hend

/-- C96: a client that uses this library is connected to the server of the README, by a socket or by the standard
streams.  It has sent any
requests that are refused before build/initialize, then build/initialize, initialized, any other messages, and exit, has
dropped its sender and goes on receiving.  When nothing can happen any more, the server has exited with success, `join`
of the client returns Ok, and the client has received exactly one answer to each request that the server has received,
in order, and nothing else. -/
theorem C96_served (hp : Spec.Plan process said early id ip v pre) {kc ks : Kind} {w : World}
    {as : List EndToEnd.Ev} (h : EndToEnd.Steps kc ks process {} as w) (hg : w.client.gone = false)
    (hx : w.client.io.accepted = said ++ [.notification .exit]) (hr : w.client.io.rxAlive = true)
    (ht : w.client.io.txAlive = false) (hq : EndToEnd.Quiet kc ks process w) :
    w.server.exit = some true ∧ join kc w.client.io = .ok ∧
    ∃ ms, Spec.Served early id v (Spec.requests pre) ms ∧ w.client.io.delivered = ms.map Message.norm := by
  obtain ⟨bs, hgo⟩ := going hp h ⟨hg, hr, by rw [hx]; exact List.prefix_refl _⟩
  obtain ⟨wA, hexit⟩ := going_exits hgo hx ht hq
  obtain ⟨_, r, happ, h2⟩ := (mainInv hgo.sess).exits true hexit
  rcases h2 with ⟨_, h2⟩ | ⟨rfl, _, h2⟩
  · cases h2
  obtain ⟨h3, h4⟩ := C58_ok_iff.1 (of_decide_eq_true h2.symm)
  obtain ⟨_, _, h5⟩ := going_ended hp hgo happ
  obtain ⟨⟨j1, j2⟩, j3⟩ := joined_left hgo.link hgo.leaving wA ⟨h3, h5⟩ h4
    (by simp [linkOf, side, Side.closed, hexit]) (fun ev a hm => hq _ _ (.client hm))
  refine ⟨hexit, j1, ?_⟩
  have j2 : w.client.io.delivered = w.server.io.accepted.map Spec.heard := j2
  have j3 : w.server.io.delivered = w.client.io.accepted.map Spec.heard := j3
  have hacc : w.server.io.accepted = Spec.answers process (Spec.session early id ip pre) := by
    have hat := (mainInv hgo.sess).at' (no_fail hgo.sess hgo.wrote)
    rw [j3, hx, plan_feed hp] at hat
    cases hat with
    | rest h6 _ => rw [happ] at h6; cases h6
    | sending h6 => rw [happ] at h6; cases h6
    | late h6 => cases h6
    | closed _ _ _ _ h6 => exact h6
  refine ⟨w.server.io.accepted, ⟨early.map refusal, (Spec.requests pre).map reply, ?_, refusals _, replies _⟩, ?_⟩
  · rw [hacc, answers_eq, feed_session hp.refused hp.accepts (plan_pre hp).1]
  rw [j2]
  refine List.map_congr_left (fun m hm => heard_wireOk ?_)
  obtain ⟨r, rfl⟩ := plan_response hp m (hacc ▸ hm)
  trivial

/-! ### Every run comes to rest -/

/-- What is left to be done by the client before the server has got everything. -/
def toServer (w : World) : Nat :=
  2 * workLeft w.client.io.writer + (w.client.io.out.length - w.server.io.arrived.length) + w.server.io.inEnd.isNone.toNat

/-- What is left to be done by the client with what it gets. -/
def toClient (w : World) : Nat :=
  3 * (w.server.io.out.length - w.client.io.arrived.length) + 2 * w.client.io.unread.length +
    (match w.client.io.reader with | .reading => 1 | .sending _ => 2 | _ => 0) + w.client.io.inEnd.isNone.toNat

def worldWork (w : World) : Nat × ((Nat × Nat) × Nat) := (toServer w, work w.server, toClient w)

omit [Dbg] in
theorem client_work {kc ks : Kind} {w : World} {ev : Link.Ev} {c : Side}
    (h : Move kc ks w.client (side w.server) ev c) (ha : ev.app = false) :
    toServer { w with client := c } < toServer w ∨
    toServer { w with client := c } = toServer w ∧ toClient { w with client := c } < toClient w := by
  cases h with
  | own _ h1 h2 h3 h4 =>
    cases h1 with
    | arrive bs _ => exact absurd rfl (h2 bs)
    | hangUp b _ => exact absurd rfl (h3 b)
    | writeFails b _ => exact absurd rfl h4
    | read r h5 h6 =>
      right
      cases r with
      | item m rest =>
        obtain ⟨f, cs, j, hf, _, _, _, hu⟩ := settled_item h6
        have := frame_nonempty hf
        refine ⟨rfl, ?_⟩
        simp only [toClient, afterRead, h5, hu, List.length_append]
        omega
      | _ => refine ⟨rfl, ?_⟩; cases kc <;> simp only [toClient, afterRead, readError, h5] <;> omega
    | deliver m h5 h6 =>
      right
      refine ⟨rfl, ?_⟩
      simp only [toClient, h5]
      have : (match afterSend m with | .reading => 1 | .sending _ => 2 | _ => 0) ≤ 1 := by
        unfold afterSend; cases isExit m <;> simp
      omega
    | undeliverable m h5 h6 => right; refine ⟨rfl, ?_⟩; simp only [toClient, h5]; omega
    | dropRx => cases ha
    | accept m _ _ => cases ha
    | dropTx => cases ha
    | write a b h5 h6 =>
      left
      have := List.length_pos_iff.2 h6
      simp only [toServer, workLeft, h5, List.length_append]
      omega
    | written h5 => left; simp only [toServer, workLeft, h5, List.length_nil]; omega
    | close h5 _ => left; simp only [toServer, workLeft, h5]; omega
  | arrive _ h1 h2 h3 =>
    right
    have := List.length_pos_iff.2 h1
    have l3 := h2.length_le
    simp only [List.length_append, side] at l3
    cases h3 with
    | arrive _ h4 =>
      refine ⟨rfl, ?_⟩
      simp only [toClient, List.length_append]
      omega
  | fin _ _ _ h1 =>
    right
    cases h1 with
    | hangUp _ h2 => refine ⟨rfl, ?_⟩; simp [toClient, h2]
  | reset _ _ _ _ h1 =>
    right
    cases h1 with
    | hangUp _ h2 => refine ⟨rfl, ?_⟩; simp [toClient, h2]
  | fails _ _ _ _ h1 =>
    left
    cases h1 with
    | writeFails b h2 => simp only [toServer, workLeft, h2]; cases kc <;> simp [writeError] <;> omega
  | exit _ => cases ha

omit [Dbg] in
/-- What the connection brings to the server leaves less to bring. -/
theorem peer_work {kc ks : Kind} {w : World} {p : Proc} {act : Transport.Act} (hk : kindOf act = some .peer)
    (h : Move ks kc (side w.server) w.client (.act act) (side p)) : toServer { w with server := p } < toServer w := by
  generalize he : side p = x at h
  have hio : p.io = x.io := by rw [← he]; rfl
  simp only [toServer, hio]
  cases h with
  | own _ h1 h2 h3 h4 =>
    cases act <;> simp [kindOf] at hk
    · exact absurd rfl (h2 _)
    · exact absurd rfl (h3 _)
  | arrive _ h1 h2 h3 =>
    have := List.length_pos_iff.2 h1
    have l3 := h2.length_le
    simp only [List.length_append, side] at l3
    cases h3 with
    | arrive _ h4 => simp only [List.length_append, side]; omega
  | fin _ _ _ h1 =>
    cases h1 with
    | hangUp _ h2 => simp only [side] at h2 ⊢; simp [h2]
  | reset _ _ _ _ h1 =>
    cases h1 with
    | hangUp _ h2 => simp only [side] at h2 ⊢; simp [h2]
  | fails => simp [kindOf] at hk

theorem world_work {kc ks : Kind} {w w' : World} {a : EndToEnd.Ev} (h : EndToEnd.Step kc ks process w a w')
    (ha : ∀ e, a = .client e → e.app = false) :
    Prod.Lex (· < ·) (Prod.Lex (Prod.Lex (· < ·) (· < ·)) (· < ·)) (worldWork w') (worldWork w) := by
  cases h with
  | client hm =>
    rcases client_work hm (ha _ rfl) with h1 | ⟨h1, h2⟩
    · exact .left _ _ h1
    · exact Prod.lex_def.2 (.inr ⟨h1, Prod.lex_def.2 (.inr ⟨rfl, h2⟩)⟩)
  | @server a p hs hp =>
    by_cases h1 : a = .peer
    · obtain ⟨act, h2, h3⟩ := hp (.inl h1)
      exact .left _ _ (peer_work (h1 ▸ h2) h3)
    · have h2 := steps_arrived (Session.Steps.snoc (.nil _) hs) (by simpa using fun e => h1 e.symm)
      refine Prod.lex_def.2 (.inr ⟨?_, .left _ _ (work_decreases hs h1)⟩)
      simp only [worldWork, toServer, h2]

/-- C96: as long as the application of the client only receives there is no infinite run. -/
theorem C96_terminates (kc ks : Kind) (process : InitializeBuild → Option Value) :
    WellFounded fun w' w : World => ∃ a, (∀ e, a = EndToEnd.Ev.client e → e.app = false) ∧
      EndToEnd.Step kc ks process w a w' :=
  Subrelation.wf (fun ⟨_, ha, h⟩ => world_work h ha)
    (InvImage.wf worldWork
      (Prod.lex ⟨_, Nat.lt_wfRel.wf⟩ ⟨_, (Prod.lex ⟨_, (Prod.lex ⟨_, Nat.lt_wfRel.wf⟩ ⟨_, Nat.lt_wfRel.wf⟩).wf⟩ ⟨_, Nat.lt_wfRel.wf⟩).wf⟩).wf)

theorem world_append {kc ks : Kind} {u v w : World} {as bs : List EndToEnd.Ev}
    (h1 : EndToEnd.Steps kc ks process u as v) (h2 : EndToEnd.Steps kc ks process v bs w) :
    EndToEnd.Steps kc ks process u (as ++ bs) w := by
  induction h2 with
  | nil => simpa using h1
  | snoc _ h4 ih => rw [← List.append_assoc]; exact .snoc ih h4

theorem world_settles (kc ks : Kind) (process : InitializeBuild → Option Value) (w : World) :
    ∃ as u, EndToEnd.Steps kc ks process w as u ∧ EndToEnd.Quiet kc ks process u ∧ ∀ a ∈ as, a.free = false := by
  refine (C96_terminates kc ks process).induction (C := fun w => ∃ as u, EndToEnd.Steps kc ks process w as u ∧
    EndToEnd.Quiet kc ks process u ∧ ∀ a ∈ as, a.free = false) w ?_
  intro w ih
  by_cases hq : EndToEnd.Quiet kc ks process w
  · exact ⟨[], w, .nil w, hq, by simp⟩
  simp only [EndToEnd.Quiet, Classical.not_forall, Bool.not_eq_true] at hq
  obtain ⟨a, u, h1, h2⟩ := hq
  obtain ⟨as, r, h3, h4, h5⟩ := ih u ⟨a, by rintro e rfl; exact h2, h1⟩
  refine ⟨[a] ++ as, r, world_append (.snoc (.nil _) h1) h3, h4, ?_⟩
  intro b hb
  rcases List.mem_append.1 hb with hb | hb
  · rw [List.mem_singleton.1 hb]; exact h2
  · exact h5 b hb

/-- What only the application of the client can change. -/
theorem world_keeps {kc ks : Kind} {w u : World} {as : List EndToEnd.Ev} (h : EndToEnd.Steps kc ks process w as u)
    (hf : ∀ e, EndToEnd.Ev.client e ∈ as → e.app = false) :
    u.client.gone = w.client.gone ∧ u.client.io.accepted = w.client.io.accepted ∧
      u.client.io.rxAlive = w.client.io.rxAlive ∧ u.client.io.txAlive = w.client.io.txAlive := by
  induction h with
  | nil => exact ⟨rfl, rfl, rfl, rfl⟩
  | snoc _ hs ih =>
    obtain ⟨a1, a2, a3, a4⟩ := ih (fun e he => hf e (List.mem_append_left _ he))
    cases hs with
    | client hm =>
      obtain ⟨c1, c2, c3, c4⟩ := move_keeps hm (hf _ (List.mem_append_right _ (List.mem_singleton.2 rfl)))
      exact ⟨c1.trans a1, c2.trans a2, c3.trans a3, c4.trans a4⟩
    | server => exact ⟨a1, a2, a3, a4⟩

/-- C96: hence, once the client has sent exit and has dropped its sender, and whatever has happened before, it
need only go on receiving: there is a continuation to that end, there is no infinite one (`C96_terminates`), and
each that cannot be continued ends there (`C96_served`). -/
theorem C96_ends (hp : Spec.Plan process said early id ip v pre) {kc ks : Kind} {w : World}
    {as : List EndToEnd.Ev} (h : EndToEnd.Steps kc ks process {} as w) (hg : w.client.gone = false)
    (hx : w.client.io.accepted = said ++ [.notification .exit]) (hr : w.client.io.rxAlive = true)
    (ht : w.client.io.txAlive = false) :
    ∃ bs u, EndToEnd.Steps kc ks process w bs u ∧ (∀ a ∈ bs, a.free = false) ∧
    u.server.exit = some true ∧ join kc u.client.io = .ok ∧
    ∃ ms, Spec.Served early id v (Spec.requests pre) ms ∧ u.client.io.delivered = ms.map Message.norm := by
  obtain ⟨bs, u, h1, h2, h3⟩ := world_settles kc ks process w
  obtain ⟨k1, k2, k3, k4⟩ := world_keeps h1 (fun e he => h3 _ he)
  exact ⟨bs, u, h1, h3, C96_served hp (world_append h h1) (k1.trans hg) (k2.trans hx) (k3.trans hr) (k4.trans ht) h2⟩

/-! ### C97: without exit -/

/-- The invariant: the connection is up, and the server has not ended. -/
structure Talking (kc ks : Kind) (process : InitializeBuild → Option Value) (bs : List Session.Act) (w : World) :
    Prop where
  sess : Session.Steps ks process {} bs w.server
  link : Link.Reachable kc ks (linkOf w)
  alive : w.server.exit = none
  goes : ∀ r, w.server.app ≠ .ended r
  inC : w.client.io.inEnd = none
  inS : w.server.io.inEnd = none
  readC : w.client.io.reader.ended = false
  readS : w.server.io.reader.ended = false
  writeC : w.client.io.writer ≠ .failed ∧ w.client.io.writer ≠ .panicked
  wrote : Session.Act.writeFails ∉ bs

omit [Dbg] in
theorem open_inEnd {k k' : Kind} {x y x' : Side} {ev : Link.Ev} (hm : Move k k' x y ev x') (hi : x.io.inEnd = none)
    (hc : y.closed k' = false) : x'.io.inEnd = none := by
  cases hm with
  | own _ h1 _ h2 _ =>
    cases h1 with
    | hangUp b _ => exact absurd rfl (h2 b)
    | read r _ _ => cases r <;> exact hi
    | _ => exact hi
  | arrive _ _ _ h1 => cases h1; exact hi
  | fin _ h1 _ _ => rw [hc] at h1; cases h1
  | reset _ h1 _ _ _ => rw [hc] at h1; cases h1
  | fails _ h1 _ _ _ => rw [hc] at h1; cases h1
  | exit _ => exact hi

omit [Dbg] in
theorem open_writer {k k' : Kind} {x y x' : Side} {ev : Link.Ev} (hm : Move k k' x y ev x')
    (hw : x.io.writer ≠ .failed ∧ x.io.writer ≠ .panicked) (hc : y.closed k' = false) :
    x'.io.writer ≠ .failed ∧ x'.io.writer ≠ .panicked := by
  cases hm with
  | own _ h1 _ _ h2 =>
    cases h1 with
    | writeFails b _ => exact absurd rfl h2
    | read r _ _ => cases r <;> exact hw
    | accept => simp
    | write => simp
    | written => simp
    | close => simp
    | _ => exact hw
  | arrive _ _ _ h1 => cases h1; exact hw
  | fin _ h1 _ _ => rw [hc] at h1; cases h1
  | reset _ h1 _ _ _ => rw [hc] at h1; cases h1
  | fails _ h1 _ _ _ => rw [hc] at h1; cases h1
  | exit _ => exact hw

omit [Dbg] in
/-- A reader of a connection that is up has not ended. -/
theorem open_reader {ka kb : Kind} {p : Pair} (h : PairReachable ka kb p) (ha : ∀ m ∈ p.a.accepted, Spec.Sayable m)
    (hn : Message.notification .exit ∉ p.a.accepted) (hup : p.b.inEnd = none) (hx : p.b.rxAlive = true) :
    p.b.reader.ended = false := by
  obtain ⟨_, h2, _, _⟩ := pair_inv h
  obtain ⟨h3, h4⟩ := C56_heard_no_error h ha hup
  cases e : p.b.reader with
  | reading => rfl
  | sending m => rfl
  | failed => exact absurd e h3
  | panicked => rw [h4 e] at hx; cases hx
  | done =>
    rcases C55_done h2 e with ⟨ms, h5⟩ | ⟨h5, _⟩
    · have : Message.notification .exit ∈ p.b.delivered := by rw [h5]; simp
      obtain ⟨m, hm, he⟩ := List.mem_map.1 ((C56_heard h ha).subset this)
      rw [heard_exit he] at hm
      exact absurd hm hn
    · rw [hup] at h5; cases h5

theorem talking_step (hp : Spec.Plan process said early id ip v pre) {kc ks : Kind} {w w' : World}
    {bs : List Session.Act} {a : EndToEnd.Ev} (h : Talking kc ks process bs w)
    (hs : EndToEnd.Step kc ks process w a w') (ht0 : Spec.Says said w) (ht : Spec.Says said w') :
    ∃ bs', Talking kc ks process bs' w' := by
  have okA : ∀ m ∈ w'.client.io.accepted, Spec.Sayable m := fun m hm => hp.sayable m (ht.said.subset hm)
  have nexA : Message.notification .exit ∉ w'.client.io.accepted := fun hm => hp.noExit (ht.said.subset hm)
  have said' : ∀ {ms}, ms <+: w'.client.io.accepted.map Spec.heard →
      ms <+: (said ++ [Message.notification .exit]).map Spec.heard := by
    intro ms hm
    obtain ⟨t, hh⟩ := ht.said
    refine hm.trans ?_
    rw [← hh, List.map_append, List.map_append, List.append_assoc]
    exact List.prefix_append _ _
  have closedS : (side w.server).closed ks = false := by simp [side, Side.closed, h.alive, h.readS]
  have closedC : w.client.closed kc = false := by simp [Side.closed, ht0.gone, h.readC]
  have rxS : w.server.io.rxAlive = true := by
    cases e : w.server.io.rxAlive with
    | true => rfl
    | false => obtain ⟨r, h3⟩ := (mainInv h.sess).gone (.inl e); exact absurd h3 (h.goes r)
  cases hs with
  | @client ev c hm =>
    have link' : Link.Reachable kc ks ⟨c, side w.server⟩ :=
      .step h.link (.left (l := linkOf w) hm)
    have pair' := link_pair link'
    have inC : c.io.inEnd = none := open_inEnd hm h.inC closedS
    have hacc : w.server.io.accepted <+: Spec.answers process (Spec.session early id ip pre) :=
      (mainInv h.sess).sent.trans (plan_stays hp (said' (C56_heard pair' okA))).2.2
    exact ⟨bs, h.sess, link', h.alive, h.goes, inC, h.inS,
      open_reader (pair_swap pair') (fun m hm => (plan_answers hp m (hacc.subset hm)).1)
        (fun hm => (plan_answers hp _ (hacc.subset hm)).2 rfl) inC ht.rx, h.readS, open_writer hm h.writeC closedS, h.wrote⟩
  | @server a p hst hpe =>
    obtain ⟨hx, hm⟩ := server_move hst hpe
    have sess' := Session.Steps.snoc h.sess hst
    have link' : Link.Reachable kc ks ⟨w.client, side p⟩ := by
      rcases hm with hm | ⟨act, hm⟩
      · rw [hm]; exact h.link
      · exact .step h.link (.right (l := linkOf w) hm)
    have pair' := link_pair link'
    have inS : p.io.inEnd = none := by
      rcases hm with hm | ⟨act, hm⟩
      · rw [show p.io = w.server.io from congrArg Side.io hm]; exact h.inS
      · exact open_inEnd hm h.inS closedC
    have hna : a ≠ .writeFails := by
      rintro rfl
      obtain ⟨act, h1, h2⟩ := hpe (.inr rfl)
      generalize side p = x at h2
      cases h2 with
      | own _ _ _ _ h3 => cases act <;> simp [kindOf] at h1; exact h3 rfl
      | arrive => cases h1
      | fin => cases h1
      | reset => cases h1
      | fails _ h3 => rw [closedC] at h3; cases h3
    have wrote' : Session.Act.writeFails ∉ bs ++ [a] := by
      simp only [List.mem_append, List.mem_singleton, not_or]
      exact ⟨h.wrote, fun e => hna e.symm⟩
    have rx' : p.io.rxAlive = true := by
      cases hst with
      | io _ i2 i3 => exact (io_same i2 i3).2.2.1.trans rxS
      | recv _ _ i2 => cases i2; exact rxS
      | send _ _ i2 => cases i2; exact rxS
      | dropRx _ i1 _ => exact absurd i1 (h.goes _)
      | _ => exact rxS
    have readS : p.io.reader.ended = false := open_reader pair' okA nexA inS rx'
    have goes : ∀ r, p.app ≠ .ended r := by
      intro r hr
      obtain ⟨s1, s2, _⟩ := plan_stays hp (said' (C56_heard pair' okA))
      cases (mainInv sess').at' (no_fail sess' wrote') with
      | rest h1 _ => exact s1 r (h1.symm.trans hr)
      | sending h1 => rw [hr] at h1; cases h1
      | late h1 => exact s2 h1
      | closed _ _ h3 => exact absurd h3 (by rw [readS]; simp)
    refine ⟨_, sess', link', ?_, goes, h.inC, inS, h.readC, readS, h.writeC, wrote'⟩
    cases e : p.exit with
    | none => rfl
    | some b => obtain ⟨_, r, h3, _⟩ := (mainInv sess').exits b e; exact absurd h3 (goes r)

theorem talking (hp : Spec.Plan process said early id ip v pre) {kc ks : Kind} {w : World} {as : List EndToEnd.Ev}
    (h : EndToEnd.Steps kc ks process {} as w) (ht : Spec.Says said w) : ∃ bs, Talking kc ks process bs w := by
  have key : ∀ {w0 w : World} {as}, EndToEnd.Steps kc ks process w0 as w → w0 = ({} : World) →
      Spec.Says said w → ∃ bs, Talking kc ks process bs w := by
    intro w0 w as h
    induction h with
    | nil =>
      intro e ht
      subst e
      exact ⟨[], .nil _, .start, rfl, by simp, rfl, rfl, rfl, rfl, by simp, by simp⟩
    | snoc _ hs ih =>
      intro e ht
      have ht0 := says_before hs ht
      obtain ⟨bs, hg⟩ := ih e ht0
      exact talking_step hp hg hs ht0 ht
  exact key h rfl ht

theorem talking_sent (hp : Spec.Plan process said early id ip v pre) {kc ks : Kind} {w : World}
    {bs : List Session.Act} (h : Talking kc ks process bs w) (ht : Spec.Says said w) :
    (∀ m ∈ w.client.io.accepted, Spec.Sayable m) ∧
    w.server.io.accepted <+: Spec.answers process (w.client.io.accepted.map Spec.heard) ∧
    w.server.io.accepted <+: Spec.answers process (Spec.session early id ip pre) := by
  have okA : ∀ m ∈ w.client.io.accepted, Spec.Sayable m := fun m hm => hp.sayable m (ht.said.subset hm)
  have h1 : w.server.io.accepted <+: Spec.answers process (w.client.io.accepted.map Spec.heard) := by
    refine (mainInv h.sess).sent.trans ?_
    rw [← answers_eq]
    exact answers_prefix (C56_heard (link_pair h.link) okA)
  refine ⟨okA, h1, h1.trans (answers_prefix ?_)⟩
  obtain ⟨t, hh⟩ := ht.said
  rw [← hp.heard, ← hh, List.map_append]
  exact List.prefix_append _ _

omit [FloatText] in
/-- An answer in a session has the id of a request that the server has received. -/
theorem answer_id (hv : process ip = some v) (he : ∀ r ∈ early, Spec.Early r) (hn : Spec.NoShutdown pre) {r : Response}
    (hm : Message.response r ∈ Spec.answers process (Spec.session early id ip pre)) :
    ∃ q, Message.request q ∈ Spec.session early id ip pre ∧ q.id = r.id := by
  rw [answers_eq, feed_session he hv hn] at hm
  simp only [List.mem_append, List.mem_map, List.mem_singleton] at hm
  have hreq : ∀ (ms : List Message) (q : Request), q ∈ Spec.requests ms → Message.request q ∈ ms := by
    intro ms q
    induction ms with
    | nil => simp [Spec.requests]
    | cons m ms ih =>
      intro hq
      cases m with
      | request q' =>
        simp only [Spec.requests, List.mem_cons] at hq
        rcases hq with rfl | hq
        · simp
        · exact List.mem_cons_of_mem _ (ih hq)
      | response _ => exact List.mem_cons_of_mem _ (ih hq)
      | notification _ => exact List.mem_cons_of_mem _ (ih hq)
  rcases hm with (⟨q, hq, h1⟩ | h1) | ⟨q, hq, h1⟩
  · refine ⟨q, by simp [Spec.session, hq], ?_⟩
    simp only [refusal, Message.response.injEq] at h1
    rw [← h1]; rfl
  · refine ⟨.initializeBuild id ip, by simp [Spec.session], ?_⟩
    simp only [Message.response.injEq] at h1
    rw [h1]; rfl
  · refine ⟨q, by simp [Spec.session, hreq _ _ hq], ?_⟩
    unfold reply at h1
    split at h1
    · cases h1; rfl
    · cases h1; rfl
    · simp only [Message.response.injEq] at h1
      rw [← h1]; rfl

omit [FloatText] [Dbg] in
theorem heard_request {m : Message} {q : Request} (h : Spec.heard m = .request q) :
    ∃ q', m = .request q' ∧ q'.id = q.id := by
  cases m with
  | request r =>
    refine ⟨r, rfl, ?_⟩
    cases r <;> simp [Spec.heard, Message.norm, Request.norm] at h
    case custom => split at h <;> simp at h; rw [← h]
    all_goals (rw [← h]; try rfl)
  | response r => simp [Spec.heard, Message.norm] at h
  | notification n => cases n <;> simp [Spec.heard, Message.norm] at h

/-- C97: as long as the client has not sent exit (and is there and receives), the server does not exit, `join` returns on
neither side, and the client receives only responses to requests other than shutdown, workspace/buildTargets,
workspace/reload and custom ones with null. -/
theorem C97_waits (hp : Spec.Plan process said early id ip v pre) {kc ks : Kind} {w : World} {as : List EndToEnd.Ev}
    (h : EndToEnd.Steps kc ks process {} as w) (hg : w.client.gone = false) (hr : w.client.io.rxAlive = true)
    (hs : w.client.io.accepted <+: said) :
    w.server.exit = none ∧ join kc w.client.io = .waiting ∧ join ks w.server.io = .waiting ∧
    ∀ m ∈ w.client.io.delivered, ∃ r q, m = .response r ∧ Message.request q ∈ said ∧ q.id = r.id ∧ ¬ Spec.Bare q := by
  have ht : Spec.Says said w := ⟨hg, hr, hs⟩
  obtain ⟨bs, hw⟩ := talking hp h ht
  obtain ⟨okA, _, hacc⟩ := talking_sent hp hw ht
  have wait : ∀ {k : Kind} {s : State}, s.reader.ended = false → join k s = .waiting := by
    intro k s h1
    unfold join
    cases e : s.reader <;> simp [e, Reader.ended] at h1 ⊢
  refine ⟨hw.alive, wait hw.readC, wait hw.readS, ?_⟩
  intro m hm
  obtain ⟨m', hm', rfl⟩ := List.mem_map.1 ((C56_heard (pair_swap (link_pair hw.link))
    (fun m hm => (plan_answers hp m (hacc.subset hm)).1)).subset hm)
  obtain ⟨r, rfl⟩ := plan_response hp _ (hacc.subset hm')
  obtain ⟨q, h1, h2⟩ := answer_id hp.accepts hp.refused (plan_pre hp).1 (hacc.subset hm')
  rw [← hp.heard] at h1
  obtain ⟨m2, h3, h4⟩ := List.mem_map.1 h1
  obtain ⟨q', rfl, h5⟩ := heard_request h4
  refine ⟨r.norm, q', rfl, h3, h5.trans h2, ?_⟩
  intro hb
  rw [heard_bare hb] at h4
  cases h4

/-- C97: in particular a shutdown request that the client has sent, with an id of its own, is never answered. -/
theorem C97_unanswered (hp : Spec.Plan process said early id ip v pre) {kc ks : Kind} {w : World}
    {as : List EndToEnd.Ev} (h : EndToEnd.Steps kc ks process {} as w) (hg : w.client.gone = false)
    (hr : w.client.io.rxAlive = true) {before after : List Message} {sid : RequestId}
    (hsaid : said = before ++ [.request (.shutdown sid)] ++ after) (hs : w.client.io.accepted <+: said)
    (hid : ∀ q, Message.request q ∈ before ++ after → q.id ≠ sid) (r : Response)
    (hm : Message.response r ∈ w.client.io.delivered) : r.id ≠ sid := by
  obtain ⟨_, _, _, h1⟩ := C97_waits hp h hg hr hs
  obtain ⟨r', q, h2, h3, h4, h5⟩ := h1 _ hm
  cases h2
  rw [hsaid] at h3
  simp only [List.mem_append, List.mem_singleton, Message.request.injEq] at h3
  rw [← h4]
  rcases h3 with (h3 | rfl) | h3
  · exact hid q (by simp [h3])
  · exact absurd ⟨sid, .inl rfl⟩ h5
  · exact hid q (by simp [h3])

omit [Dbg] in
/-- A writer that does not write has written everything. -/
theorem written_all {k : Kind} {s : State} (h : Reachable k s) (hw : s.writer = .idle ∨ s.writer = .done) :
    s.out = s.accepted.flatMap Frame.write := by
  have := writeInv h
  rcases hw with hw | hw <;> simp only [WriteInv, hw] at this <;> first | exact this | exact this.1

/-- C97: when then nothing can happen any more, the client having sent all it had to say, it has received exactly one
answer to each request that the server has received, in order, and nothing else. -/
theorem C97_rest (hp : Spec.Plan process said early id ip v pre) {kc ks : Kind} {w : World} {as : List EndToEnd.Ev}
    (h : EndToEnd.Steps kc ks process {} as w) (hg : w.client.gone = false) (hr : w.client.io.rxAlive = true)
    (hs : w.client.io.accepted = said) (hq : EndToEnd.Quiet kc ks process w) :
    ∃ ms, Spec.Served early id v (Spec.requests pre) ms ∧ w.client.io.delivered = ms.map Message.norm := by
  have ht : Spec.Says said w := ⟨hg, hr, by rw [hs]; exact List.prefix_refl _⟩
  obtain ⟨bs, hw⟩ := talking hp h ht
  obtain ⟨okA, _, hacc⟩ := talking_sent hp hw ht
  have hpair := link_pair hw.link
  obtain ⟨p1, p2, p3, p4⟩ := pair_inv hpair
  have noC : ∀ {act io}, Link.Ev.app (.act act) = false →
      ¬ Move kc ks w.client (side w.server) (.act act) { w.client with io } := by
    intro act io h1 h2
    have : Link.Ev.app (.act act) = true := hq _ _ (.client h2)
    rw [h1] at this; cases this
  have noS : ∀ {a q}, Session.Step ks process w.server a q → a = .thread ∨ a = .main → False := by
    intro a q hs ha
    have := hq _ _ (.server hs (by rcases ha with rfl | rfl <;> simp))
    rcases ha with rfl | rfl <;> cases this
  have closedS : (side w.server).closed ks = false := by simp [side, Side.closed, hw.alive, hw.readS]
  rcases C71_nothing_pending hw.sess hw.wrote (quiet_server hq) with ⟨b, hb⟩ | ⟨h1, _, _, h4⟩
  · rw [hw.alive] at hb; cases hb
  have rxS : w.server.io.rxAlive = true := by
    cases e : w.server.io.rxAlive with
    | true => rfl
    | false => obtain ⟨r, h3⟩ := (mainInv hw.sess).gone (.inl e); exact absurd h3 (hw.goes r)
  have wC : w.client.io.writer = .idle ∨ w.client.io.writer = .done := by
    cases e : w.client.io.writer with
    | idle => exact .inl rfl
    | done => exact .inr rfl
    | writing r =>
      exfalso
      cases r with
      | nil => exact noC rfl (.own hg (.written _ e) (by simp) (by simp) (by simp))
      | cons c r => exact noC rfl (.own hg (.write _ [c] r e (by simp)) (by simp) (by simp) (by simp))
    | failed => exact absurd e hw.writeC.1
    | panicked => exact absurd e hw.writeC.2
  have outC := written_all p1 wC
  have arrS : w.server.io.arrived = w.client.io.out := by
    obtain ⟨t, ht'⟩ := p3
    simp only [linkOf, side] at ht'
    by_cases hne : t = []
    · rw [← ht', hne, List.append_nil]
    · have hs := Transport.Step.arrive (k := ks) w.server.io t hw.inS
      have := hq _ _ (.server (.io hw.alive hs rfl) (fun _ => ⟨_, rfl,
        .arrive (by simp [side, hw.alive]) hne (by simp only [side]; rw [ht']; exact List.prefix_refl _) hs⟩))
      cases this
  have delS : w.server.io.delivered = said.map Spec.heard := by
    rw [← hs]
    cases e : w.server.io.reader with
    | sending m => exact (noS (.recv hw.alive h1 (.deliver _ m e rxS)) (.inr rfl)).elim
    | reading =>
      exact C56_heard_all hpair okA (arrS.trans outC) e (by
        rintro ⟨s', hs'⟩
        exact noS (.io hw.alive hs' rfl) (.inl rfl))
    | _ => have := hw.readS; simp [e, Reader.ended] at this
  have accS : w.server.io.accepted = Spec.answers process (Spec.session early id ip pre) := by
    have hat := (mainInv hw.sess).at' (no_fail hw.sess hw.wrote)
    rw [delS, hp.heard, ← answers_eq] at hat
    cases hat with
    | rest _ h6 => exact h6
    | sending h6 => rw [receives_toSend h1] at h6; cases h6
    | late _ h6 => exact absurd h6 (hw.goes _)
    | closed _ _ h6 => exact absurd h6 (by rw [hw.readS]; simp)
  have arrC : w.client.io.arrived = w.server.io.out := by
    obtain ⟨t, ht'⟩ := p4
    simp only [linkOf, side] at ht'
    by_cases hne : t = []
    · rw [← ht', hne, List.append_nil]
    · exact (noC rfl (.arrive hg hne (by simp only [side]; rw [ht']; exact List.prefix_refl _)
        (.arrive _ t hw.inC))).elim
  have delC : w.client.io.delivered = w.server.io.accepted.map Spec.heard := by
    cases e : w.client.io.reader with
    | sending m => exact (noC rfl (.own hg (.deliver _ m e hr) (by simp) (by simp) (by simp))).elim
    | reading =>
      refine C56_heard_all (pair_swap hpair) (fun m hm => (plan_answers hp m (hacc.subset hm)).1)
        (arrC.trans (h4.trans ?_)) e (by
        rintro ⟨s', hs'⟩
        exact noC rfl (.own hg hs' (by simp) (by simp) (by simp)))
      rw [delS, hp.heard, ← accS]; rfl
    | _ => have := hw.readC; simp [e, Reader.ended] at this
  refine ⟨w.server.io.accepted, ⟨early.map refusal, (Spec.requests pre).map reply, ?_, refusals _, replies _⟩, ?_⟩
  · rw [accS, answers_eq, feed_session hp.refused hp.accepts (plan_pre hp).1]
  rw [delC]
  refine List.map_congr_left (fun m hm => heard_wireOk ?_)
  obtain ⟨r, rfl⟩ := plan_response hp m (hacc.subset hm)
  trivial

/-- The client sends its messages one after the other, before anything else happens. -/
theorem says_run (kc ks : Kind) (process : InitializeBuild → Option Value) (ms : List Message) :
    ∃ as, EndToEnd.Steps kc ks process {} as
      { client := { io := { accepted := ms, out := ms.flatMap Frame.write } } } := by
  suffices ∀ (ms pre : List Message), ∃ as, EndToEnd.Steps kc ks process
      { client := { io := { accepted := pre, out := pre.flatMap Frame.write } } } as
      { client := { io := { accepted := pre ++ ms, out := (pre ++ ms).flatMap Frame.write } } } from this ms []
  intro ms
  induction ms with
  | nil => intro pre; exact ⟨[], by simpa using EndToEnd.Steps.nil _⟩
  | cons m ms ih =>
    intro pre
    obtain ⟨as, h⟩ := ih (pre ++ [m])
    have hne : Frame.write m ≠ [] := by
      intro h
      have := congrArg List.length h
      simp [Frame.write, Frame.frame, utf8] at this
      exact absurd this.1 (by decide)
    have s1 : EndToEnd.Steps kc ks process { client := { io := { accepted := pre, out := pre.flatMap Frame.write } } } _ _ :=
      .snoc (.snoc (.snoc (.nil _)
        (.client (.own rfl (.accept _ m rfl rfl) (by simp) (by simp) (by simp))))
        (.client (.own rfl (.write _ (Frame.write m) [] (by simp) hne) (by simp) (by simp) (by simp))))
        (.client (.own rfl (.written _ rfl) (by simp) (by simp) (by simp)))
    refine ⟨_, world_append (bs := as) s1 ?_⟩
    · simpa using h

end

section
attribute [local instance] Ext.sample FloatText.sample Dbg.sample

/-- A request before build/initialize, the handshake, a request after it, and shutdown. -/
def sampleSaid : List Message :=
  [.request (.buildTargetSources (.i32 0) ⟨[]⟩), .request (.initializeBuild (.i32 1) sampleInit),
   .notification .initialized, .request (.buildTargetSources (.i32 2) ⟨[]⟩), .request (.shutdown (.i32 3))]

set_option maxRecDepth 5000 in
theorem samplePlan : Spec.Plan sampleHandler sampleSaid [.buildTargetSources (.i32 0) ⟨[]⟩] (.i32 1) sampleInit
    (.ofJson (.str "c")) [.request (.buildTargetSources (.i32 2) ⟨[]⟩), .response ⟨.i32 3, none, none⟩] := by
  refine ⟨?_, by simp [sampleSaid], by rfl, by simp [Spec.Early], by rfl, ?_⟩
  · intro m hm
    simp only [sampleSaid, List.mem_cons, List.not_mem_nil, or_false] at hm
    rcases hm with rfl | rfl | rfl | rfl | rfl
    · exact ⟨.inl trivial, by decide, by repeat' constructor, by decide⟩
    · exact ⟨.inl trivial, by decide, by repeat' constructor, by decide⟩
    · exact ⟨.inl trivial, by decide, by repeat' constructor, by decide⟩
    · exact ⟨.inl trivial, by decide, by repeat' constructor, by decide⟩
    · exact ⟨.inr ⟨_, rfl, _, .inl rfl⟩, by decide, by repeat' constructor, by decide⟩
  · intro m hm
    have e : Spec.answers sampleHandler (Spec.session [.buildTargetSources (.i32 0) ⟨[]⟩] (.i32 1) sampleInit
      [.request (.buildTargetSources (.i32 2) ⟨[]⟩), .response ⟨.i32 3, none, none⟩]) =
      [refusal (.buildTargetSources (.i32 0) ⟨[]⟩), .response ⟨.i32 1, some (.ofJson (.str "c")), none⟩,
        Conn.noSources (.i32 2)] := by rw [answers_eq]; rfl
    rw [e] at hm
    simp only [List.mem_cons, List.not_mem_nil, or_false] at hm
    rcases hm with rfl | rfl | rfl
    · exact ⟨by decide, by repeat' constructor, by decide⟩
    · exact ⟨by decide, by repeat' constructor, by decide⟩
    · exact ⟨by decide, by repeat' constructor, by decide⟩

/-- Beside C96: all that, and exit. -/
example (kc ks : Kind) : ∃ as w, EndToEnd.Steps kc ks sampleHandler {} as w ∧ w.server.exit = some true ∧
    join kc w.client.io = .ok ∧ w.client.io.delivered.length = 3 := by
  obtain ⟨as, h⟩ := says_run kc ks sampleHandler (sampleSaid ++ [.notification .exit])
  have h0 := EndToEnd.Steps.snoc h (.client (.own rfl (.dropTx _) (by simp) (by simp) (by simp)))
  obtain ⟨bs, w, h1, _, h2, h3, ms, h4, h5⟩ := C96_ends samplePlan h0 rfl rfl rfl rfl
  refine ⟨_, w, world_append h0 h1, h2, h3, ?_⟩
  obtain ⟨refs, rs, h6, h7, h8⟩ := h4
  have := h7.length
  cases h8 with
  | cons _ h8 => cases h8; simp [h5, h6, this]

/-- Beside C97: the same without exit, over any kind of connection. -/
example (kc ks : Kind) : ∃ as w, EndToEnd.Steps kc ks sampleHandler {} as w ∧
    w.client.io.accepted = sampleSaid ∧ w.server.exit = none ∧ join kc w.client.io = .waiting ∧
    w.client.io.delivered.length = 3 ∧ ∀ r, Message.response r ∈ w.client.io.delivered → r.id ≠ .i32 3 := by
  obtain ⟨as, h⟩ := says_run kc ks sampleHandler sampleSaid
  obtain ⟨bs, w, h1, h2, h3⟩ := world_settles kc ks sampleHandler
    { client := { io := { accepted := sampleSaid, out := sampleSaid.flatMap Frame.write } } }
  obtain ⟨k1, k2, k3, k4⟩ := world_keeps h1 (fun e he => h3 _ he)
  have h0 := world_append h h1
  obtain ⟨h4, h5, _, _⟩ := C97_waits samplePlan h0 k1 k3 (by rw [k2]; exact List.prefix_refl _)
  obtain ⟨ms, ⟨refs, rs, h6, h7, h8⟩, h9⟩ := C97_rest samplePlan h0 k1 k3 k2 h2
  refine ⟨_, w, h0, k2, h4, h5, ?_, ?_⟩
  · have := h7.length
    cases h8 with
    | cons _ h8 => cases h8; simp [h9, h6, this]
  · intro r hr
    exact C97_unanswered samplePlan h0 k1 k3 (before := sampleSaid.dropLast) (after := []) (by rfl)
      (by rw [k2]; exact List.prefix_refl _) (by
        intro q hq
        simp [sampleSaid] at hq
        rcases hq with rfl | rfl | rfl <;> decide) r hr

end
end Bsp
