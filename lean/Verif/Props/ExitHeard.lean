/-
C140: what the exit status of the server tells a client that uses this library.
-/
import Verif.Props.ExitCode
import Verif.Props.HangOpen

namespace Bsp
open Frame Json Transport
open Link (Move LinkStep Side Quiet)
open Conn (Dbg reply)
open Session (Proc App onRecv onSent toSend kindOf)
open EndToEnd (World side)

section
variable [LawfulExt] [FloatText] [Dbg] {process : InitializeBuild → Option Value}

/-! ### Shutdown is never heard -/

/-- The main thread waits for exit, or is about to, only after shutdown. -/
theorem leaving_heard {k : Kind} {p : Proc} {as : List Session.Act} (h : Session.Steps k process {} as p) :
    (p.app = .leaving ∨ (∃ id, p.app = .stopping id) ∨ Session.Act.timeout ∈ as) →
    ∃ sid, Message.request (.shutdown sid) ∈ p.io.delivered := by
  generalize hp : ({} : Proc) = p0 at h
  induction h with
  | nil => subst hp; rintro (h | ⟨_, h⟩ | h) <;> cases h
  | @snoc as q a r hq hs ih =>
    subst hp
    intro h
    have late : Session.Act.timeout ∈ as ++ [a] → Session.Act.timeout ∈ as ∨ a = .timeout := by
      intro h
      rcases List.mem_append.1 h with h | h
      · exact .inl h
      · exact .inr (List.mem_singleton.1 h).symm
    cases hs with
    | io h1 h2 h3 =>
      have hd := (io_same h2 h3).1
      simp only
      rw [hd]
      rcases h with h | h | h
      · exact ih (.inl h)
      · exact ih (.inr (.inl h))
      · rcases late h with h | h
        · exact ih (.inr (.inr h))
        · subst h; cases h2 <;> simp [kindOf] at h3
    | @recv m io' h1 h2 h3 =>
      cases h3 with
      | deliver _ _ _ =>
        have old : (∃ sid, Message.request (.shutdown sid) ∈ q.io.delivered) →
            ∃ sid, Message.request (.shutdown sid) ∈ q.io.delivered ++ [m] := by
          rintro ⟨sid, h⟩; exact ⟨sid, List.mem_append_left _ h⟩
        rcases h with h | ⟨id, h⟩ | h
        · revert h
          simp only
          unfold onRecv
          split <;> try (intro h; cases h)
          · split <;> (intro h; cases h)
          · intro h; exact old (ih (.inl h))
        · revert h
          simp only
          unfold onRecv
          split <;> try (intro h; cases h)
          · split <;> (intro h; cases h)
          · rename_i heq
            cases heq
            exact ⟨_, List.mem_append_right _ (List.mem_singleton.2 rfl)⟩
          · intro h; exact old (ih (.inr (.inl ⟨id, h⟩)))
        · rcases late h with h | h
          · exact old (ih (.inr (.inr h)))
          · cases h
    | closed h1 h2 _ =>
      rcases h with h | ⟨id, h⟩ | h
      · obtain ⟨r, h3⟩ := onRecv_none (process := process) h2
        simp only at h; rw [h3] at h; cases h
      · obtain ⟨r, h3⟩ := onRecv_none (process := process) h2
        simp only at h; rw [h3] at h; cases h
      · rcases late h with h | h
        · exact ih (.inr (.inr h))
        · cases h
    | @send m io' h1 h2 h3 =>
      have sent : ∀ b, (onSent q.app b = .leaving ∨ ∃ id, onSent q.app b = .stopping id) →
          q.app = .leaving ∨ ∃ id, q.app = .stopping id := by
        intro b
        cases e : q.app <;> cases b <;> simp [onSent]
      cases h3 with
      | accept _ _ _ =>
        rcases h with h | h | h
        · rcases sent _ (.inl h) with h | h
          · exact ih (.inl h)
          · exact ih (.inr (.inl h))
        · rcases sent _ (.inr h) with h | h
          · exact ih (.inl h)
          · exact ih (.inr (.inl h))
        · rcases late h with h | h
          · exact ih (.inr (.inr h))
          · cases h
    | @unsent m h1 h2 h3 =>
      have sent : ∀ b, (onSent q.app b = .leaving ∨ ∃ id, onSent q.app b = .stopping id) →
          q.app = .leaving ∨ ∃ id, q.app = .stopping id := by
        intro b
        cases e : q.app <;> cases b <;> simp [onSent]
      rcases h with h | h | h
      · rcases sent _ (.inl h) with h | h
        · exact ih (.inl h)
        · exact ih (.inr (.inl h))
      · rcases sent _ (.inr h) with h | h
        · exact ih (.inl h)
        · exact ih (.inr (.inl h))
      · rcases late h with h | h
        · exact ih (.inr (.inr h))
        · cases h
    | timeout h1 h2 => exact ih (.inl h2)
    | _ =>
      rcases h with h | h | h
      · exact ih (.inl h)
      · exact ih (.inr (.inl h))
      · rcases late h with h | h
        · exact ih (.inr (.inr h))
        · cases h

/-- So with a client that uses this library it never does, and no time limit passes. -/
theorem heard_timely {kc ks : Kind} {w : World} {as : List EndToEnd.Ev} {bs : List Session.Act}
    (h : EndToEnd.Steps kc ks process {} as w) (hs : ∀ m ∈ w.client.io.accepted, Spec.Sayable m)
    (hb : Session.Steps ks process {} bs w.server) : Session.Act.timeout ∉ bs := by
  intro ht
  obtain ⟨sid, h1⟩ := leaving_heard hb (.inr (.inr ht))
  have hd : w.server.io.delivered <+: w.client.io.accepted.map Spec.heard := C56_heard (link_pair (world_link h).1) hs
  obtain ⟨m, _, h2⟩ := List.mem_map.1 (hd.subset h1)
  exact heard_not_shutdown m sid h2

/-! ### How the reader of the server ends -/

omit [Dbg] in
/-- The input of a side that is not closed is open, if the other side is there and goes on receiving. -/
theorem open_input {ka kb : Kind} {l : Link.Link} (hr : Link.Reachable ka kb l) (hg : l.a.gone = false)
    (hx : l.a.io.rxAlive = true) (ok : ∀ m ∈ l.b.io.accepted, Spec.Sayable m)
    (hn : Message.notification .exit ∉ l.b.io.accepted) (hc : l.b.closed kb = false) : l.b.io.inEnd = none := by
  have h1 := open_reader (pair_swap (link_pair hr)) ok hn ((link_blame hr).1 hc).1 hx
  simp only at h1
  refine ((link_blame hr).2 ?_).1
  cases e : l.a.closed ka with
  | false => rfl
  | true => rw [(closed_ended (by simp [hg]) e).1] at h1; cases h1

/-- While the client is there and goes on receiving, the reader of the server ends after exit, or because the main
thread has come to its end. -/
theorem heard_reader {kc ks : Kind} {w : World} {as : List EndToEnd.Ev}
    (h : EndToEnd.Steps kc ks process {} as w) (hg : w.client.gone = false) (hr : w.client.io.rxAlive = true)
    (hs : ∀ m ∈ w.client.io.accepted, Spec.Sayable m) (ok : ∀ m ∈ w.server.io.accepted, Spec.Sayable m)
    (hn : Message.notification .exit ∉ w.server.io.accepted) (he : w.server.io.reader.ended = true) :
    Message.notification .exit ∈ w.server.io.delivered ∨
      ∃ r, (feed process .start w.server.io.delivered).1 = .ended r := by
  generalize hw : ({} : World) = w0 at h
  induction h with
  | nil => subst hw; cases he
  | @snoc as u a w' h1 hst ih =>
    subst hw
    cases hst with
    | client hm =>
      have g := move_grows hm
      refine ih ?_ (g.rx hr) (fun m hm => hs m (g.accepted.subset hm)) ok hn he
      cases e : u.client.gone with
      | false => rfl
      | true => rw [g.gone e] at hg; cases hg
    | @server a p hst hpe =>
      have hst' := EndToEnd.Steps.snoc h1 (.server hst hpe)
      obtain ⟨hl, bs, hss⟩ := world_link h1
      obtain ⟨hl', bs', hss'⟩ := world_link hst'
      have hacc : u.server.io.accepted <+: p.io.accepted := by
        cases hst with
        | io _ i2 i3 => rw [(io_same i2 i3).2.1]; exact List.prefix_refl _
        | recv _ _ i2 => cases i2; exact List.prefix_refl _
        | send _ _ i2 => cases i2; exact List.prefix_append _ _
        | _ => exact List.prefix_refl _
      have ok0 : ∀ m ∈ u.server.io.accepted, Spec.Sayable m := fun m hm => ok m (hacc.subset hm)
      have hn0 : Message.notification .exit ∉ u.server.io.accepted := fun hm => hn (hacc.subset hm)
      have ih := fun he => ih hg hr hs ok0 hn0 he
      cases e0 : u.server.io.reader.ended with
      | true =>
        have same : p.io.delivered = u.server.io.delivered := by
          cases hst with
          | io _ i2 i3 => exact (io_same i2 i3).1
          | recv _ _ i2 =>
            cases i2 with
            | deliver _ i3 _ => rw [i3] at e0; cases e0
          | send _ _ i2 => cases i2; rfl
          | _ => rfl
        simp only [same]
        exact ih e0
      | false =>
        have hex : u.server.exit = none := by cases hst <;> assumption
        have hin : u.server.io.inEnd = none := open_input (l := linkOf u) hl hg hr ok0 hn0
          (by simp [linkOf, side, Side.closed, hex, e0])
        have wrote := session_wrote hss (right_writes (l := linkOf u) hl hg hr ok0 hn0)
        have pair' := link_pair hl'
        -- only a read, or the failure to hand over a message, ends the reader
        cases hst with
        | @io act _ io' i1 i2 i3 =>
          have hd := (io_same i2 i3).1
          have hrx := (io_same i2 i3).2.2.1
          have hin' : io'.inEnd = none := by
            cases i2 with
            | hangUp => rw [show ({ u.server.io with inEnd := _ } : State).reader = u.server.io.reader from rfl] at he; rw [e0] at he; cases he
            | read r => cases r <;> exact hin
            | _ => exact hin
          obtain ⟨n1, n2⟩ := C56_heard_no_error pair' hs hin'
          simp only [linkOf, side] at n1 n2 he
          simp only
          cases e : io'.reader with
          | reading => rw [e] at he; cases he
          | sending m => rw [e] at he; cases he
          | done =>
            rcases C55_done (pair_inv pair').2.1 e with ⟨ms, h3⟩ | ⟨h3, _⟩
            · simp only [linkOf, side] at h3
              exact .inl (by rw [h3]; simp)
            · simp only [linkOf, side] at h3
              rw [hin'] at h3; cases h3
          | failed => exact absurd e n1
          | panicked =>
            right
            have h3 : u.server.io.rxAlive = false := by rw [← hrx]; exact n2 e
            obtain ⟨r, h4⟩ := (mainInv hss).gone (.inl h3)
            rw [hd]
            cases (mainInv hss).at' (no_fail hss wrote) with
            | rest h5 _ => exact ⟨r, by rw [← h5, h4]⟩
            | sending h5 => rw [h4] at h5; cases h5
            | closed _ _ h5 => rw [e0] at h5; cases h5
            | late _ _ h5 => exact absurd h5 (heard_timely h1 hs hss)
        | @recv m io' _ _ i2 =>
          cases i2 with
          | deliver _ _ _ =>
            left
            by_cases hm : m = .notification .exit
            · simp [hm]
            · exfalso
              have : afterSend m = .reading := by
                unfold afterSend
                split
                · rename_i h5; exact absurd (isExit_iff.1 h5) hm
                · rfl
              simp only [this] at he
              cases he
        | closed _ _ i2 => rw [e0] at i2; cases i2
        | send _ _ i2 => cases i2; simp only at he; rw [e0] at he; cases he
        | _ => simp only at he; rw [e0] at he; cases he

/-! ### C140 -/

omit [Dbg] [FloatText] in
/-- What is heard of what has been said has no shutdown. -/
theorem heard_noShutdown (ms : List Message) : Spec.NoShutdown (ms.map Spec.heard) := by
  intro i hi
  obtain ⟨m, _, h⟩ := List.mem_map.1 hi
  exact heard_not_shutdown m i h

omit [Dbg] [FloatText] in
theorem heard_noExit {ms : List Message} (h : Message.notification .exit ∉ ms) :
    Message.notification .exit ∉ ms.map Spec.heard := by
  intro hm
  obtain ⟨m, h1, h2⟩ := List.mem_map.1 hm
  rw [heard_exit h2] at h1
  exact h h1

omit [FloatText] [Dbg] in
/-- The messages before the first exit are determined. -/
theorem before_exit {a b s t : List Message} (h : a ++ Message.notification .exit :: s = b ++ Message.notification .exit :: t)
    (ha : Message.notification .exit ∉ a) (hb : Message.notification .exit ∉ b) : a = b := by
  rcases List.append_eq_append_iff.1 h with ⟨c, h4, h5⟩ | ⟨c, h4, h5⟩
  · cases c with
    | nil => simpa using h4.symm
    | cons x c =>
      simp only [List.cons_append, List.cons.injEq] at h5
      exact absurd (by rw [h4, ← h5.1]; simp) hb
  · cases c with
    | nil => simpa using h4
    | cons x c =>
      simp only [List.cons_append, List.cons.injEq] at h5
      exact absurd (by rw [h4, ← h5.1]; simp) ha

/-- C140: a client that uses this library is connected to the server of the README, by a socket or by the standard
streams.  If the server has exited with success, at whatever moment and whatever has gone wrong, then what it hears of
something the client has said is a session, and after that the client has sent exit or has hung up. -/
theorem C140_success {kc ks : Kind} {w : World} {as : List EndToEnd.Ev} (h : EndToEnd.Steps kc ks process {} as w)
    (hs : ∀ m ∈ w.client.io.accepted, Spec.Sayable m) (he : w.server.exit = some true) :
    ∃ said more, w.client.io.accepted = said ++ more ∧ Spec.Session process (said.map Spec.heard) ∧
      ((∃ t, more = .notification .exit :: t) ∨ w.server.io.inEnd = some false) := by
  obtain ⟨hl, bs, hss⟩ := world_link h
  obtain ⟨p1, p2, p3, _⟩ := pair_inv (link_pair hl)
  obtain ⟨t, ht⟩ := p3.trans (C53_output p1).1
  simp only [linkOf, side] at ht
  have heard : ∀ {b1 b2 ms}, w.server.io.arrived = b1 ++ b2 → Spec.Carries b1 ms →
      ms <+: w.client.io.accepted.map Spec.heard := by
    intro b1 b2 ms hb hc
    have h1 := readAll_carries hc (b2 ++ t) false
    rw [← List.append_assoc, ← hb, ht, C13_heard_stream _ hs] at h1
    exact ⟨_, (Prod.mk.inj h1).1.symm⟩
  have cut : ∀ {ms}, ms <+: w.client.io.accepted.map Spec.heard → ∃ said more,
      w.client.io.accepted = said ++ more ∧ ms = said.map Spec.heard := by
    intro ms hp
    obtain ⟨t, ht⟩ := hp
    obtain ⟨l1, l2, h1, h2, _⟩ := List.map_eq_append_iff.1 ht.symm
    exact ⟨l1, l2, h1, h2.symm⟩
  rcases C139_trusted hss he with ⟨b1, b2, ms, hb, hc, ses, h1, h2⟩ | ⟨h0, b1, hl', ms, hb, _, hc, h1⟩
  · rcases h2 with rfl | ⟨sid, rfl⟩
    · obtain ⟨said, more, h3, h4⟩ := cut (heard hb hc)
      obtain ⟨l1, l2, rfl, h6, h7⟩ := List.map_eq_append_iff.1 h4.symm
      obtain ⟨x, l3, rfl, h8, h9⟩ := List.map_eq_cons_iff.1 h7
      obtain rfl := List.map_eq_nil_iff.1 h9
      rw [heard_exit h8] at h3
      exact ⟨l1, .notification .exit :: more, by rw [h3]; simp, by rw [h6]; exact h1, .inl ⟨_, rfl⟩⟩
    · exact absurd ((heard hb hc).subset (by simp)) (heard_noShutdown _ sid)
  · obtain ⟨said, more, h3, rfl⟩ := cut (heard hb hc)
    exact ⟨said, more, h3, h1, .inr h0⟩

/-- C140: the client has sent exit, has dropped its sender and goes on receiving.  When nothing can happen any more the
server has exited: with success exactly if what it hears of what the client has said before exit is a session. -/
theorem C140_exit {kc ks : Kind} {w : World} {as : List EndToEnd.Ev} (h : EndToEnd.Steps kc ks process {} as w)
    (hg : w.client.gone = false) (hr : w.client.io.rxAlive = true) (ht : w.client.io.txAlive = false)
    (hs : ∀ m ∈ w.client.io.accepted, Spec.Sayable m)
    {said more : List Message} (hx : w.client.io.accepted = said ++ .notification .exit :: more)
    (hne : Message.notification .exit ∉ said)
    (hc : ∀ m ∈ Spec.answers process (w.client.io.accepted.map Spec.heard), Spec.Carried m)
    (hq : EndToEnd.Quiet kc ks process w) :
    w.server.exit ≠ none ∧ (w.server.exit = some true ↔ Spec.Session process (said.map Spec.heard)) := by
  obtain ⟨hl, bs, hss⟩ := world_link h
  have hpair := link_pair hl
  obtain ⟨p1, p2, p3, p4⟩ := pair_inv hpair
  have hd : w.server.io.delivered <+: w.client.io.accepted.map Spec.heard := C56_heard hpair hs
  have hacc : w.server.io.accepted <+: Spec.answers process (w.client.io.accepted.map Spec.heard) := by
    refine (mainInv hss).sent.trans ?_
    rw [← answers_eq]
    exact answers_prefix hd
  have okB : ∀ m ∈ w.server.io.accepted, Spec.Sayable m := by
    intro m hm
    obtain ⟨r, rfl⟩ := answers_responses _ m (hacc.subset hm)
    exact ⟨.inl trivial, hc _ (hacc.subset hm)⟩
  have nexB : Message.notification .exit ∉ w.server.io.accepted := by
    intro hm
    obtain ⟨r, h1⟩ := answers_responses _ _ (hacc.subset hm)
    cases h1
  have wrote : Session.Act.writeFails ∉ bs := session_wrote hss (right_writes hl hg hr okB nexB)
  have timely := heard_timely h hs hss
  have hfin := final hss wrote timely (quiet_server hq) (.inl ⟨rfl, rfl⟩)
  have noSd : ∀ sid, Message.request (.shutdown sid) ∉ w.server.io.delivered := fun sid hm =>
    heard_noShutdown _ sid (hd.subset hm)
  -- what the server has heard up to exit
  have upto : Message.notification .exit ∈ w.server.io.delivered →
      w.server.io.delivered = said.map Spec.heard ++ [.notification .exit] := by
    intro hm
    obtain ⟨_, ⟨ms, h1, h2⟩, _⟩ := C52_exit p2 hm
    simp only [linkOf, side] at h1
    obtain ⟨t, h3⟩ := hd
    rw [h1, hx, List.map_append, List.append_assoc] at h3
    rw [h1, before_exit (t := more.map Spec.heard) h3 h2 (heard_noExit hne)]
  have hexit : w.server.exit ≠ none := by
    intro hex
    have hnx := (hfin.waits hex).2.1
    rcases C71_nothing_pending hss wrote (quiet_server hq) with ⟨b, h1⟩ | ⟨h1, h2, _, _⟩
    · rw [hex] at h1; cases h1
    have no : ∀ {a q}, Session.Step ks process w.server a q → a = .thread ∨ a = .main → False := by
      intro a q hs ha
      have := hq _ _ (.server hs (by rcases ha with rfl | rfl <;> simp))
      rcases ha with rfl | rfl <;> cases this
    have hend : w.server.io.reader.ended = false := by
      cases e : w.server.io.reader.ended with
      | false => rfl
      | true => exact (no (.closed hex h1 e) (.inr rfl)).elim
    have hcl : (side w.server).closed ks = false := by simp [side, Side.closed, hex, hend]
    have wA : w.client.io.writer = .done := by
      have h3 := quiet_client_writer hq hg ht
      obtain ⟨_, h4, h5⟩ := (link_blame hl).1 hcl
      simp only [linkOf] at h4 h5
      cases e : w.client.io.writer with
      | failed => exact absurd e h4
      | panicked => exact absurd e h5
      | done => rfl
      | _ => simp [e, Writer.ended] at h3
    have hrx : w.server.io.rxAlive = true := by
      cases e : w.server.io.rxAlive with
      | true => rfl
      | false =>
        obtain ⟨r, h3⟩ := (mainInv hss).gone (.inl e)
        rw [h3] at h1; cases h1
    cases e : w.server.io.reader with
    | sending m => exact no (.recv hex h1 (.deliver _ m e hrx)) (.inr rfl)
    | reading =>
      obtain ⟨t, ht'⟩ := p3
      simp only [linkOf, side] at ht'
      have harr : w.server.io.arrived = w.client.io.out := by
        by_cases hne : t = []
        · rw [← ht', hne, List.append_nil]
        · have hs := Transport.Step.arrive (k := ks) w.server.io t h2
          have := hq _ _ (.server (.io hex hs rfl) (fun _ => ⟨_, rfl,
            .arrive (by simp [side, hex]) hne (by simp only [side]; rw [ht']; exact List.prefix_refl _) hs⟩))
          cases this
      have hall := C56_heard_all hpair hs (harr.trans (C54_drained p1 wA).2) e (by
        rintro ⟨s', hs'⟩
        exact no (.io hex hs' rfl) (.inl rfl))
      simp only [linkOf, side] at hall
      refine hnx ?_
      rw [hall, hx]
      exact List.mem_map.2 ⟨.notification .exit, by simp, rfl⟩
    | _ => simp [e, Reader.ended] at hend
  refine ⟨hexit, ?_⟩
  by_cases hm : Message.notification .exit ∈ w.server.io.delivered
  · -- the server has heard exit
    obtain ⟨b1, b2, hb, hcar⟩ := final_carried hfin
    rw [upto hm] at hcar
    rw [(C139_exit hss wrote timely (quiet_server hq) (.inl ⟨rfl, rfl⟩) hb hcar (heard_noExit hne)).2]
    refine or_iff_left ?_
    rintro ⟨ses, sid, _, h1⟩
    exact heard_noShutdown said sid (by rw [h1]; simp)
  · -- the main thread has come to its end before
    have hend : ∃ r, (feed process .start w.server.io.delivered).1 = .ended r := by
      cases hex : w.server.exit with
      | none => exact absurd hex hexit
      | some b =>
        cases (mainInv hss).at' (no_fail hss wrote) with
        | rest h5 _ =>
          obtain ⟨_, r, h3, _⟩ := (mainInv hss).exits b hex
          exact ⟨r, by rw [← h5, h3]⟩
        | sending h5 =>
          obtain ⟨_, r, h3, _⟩ := (mainInv hss).exits b hex
          rw [h3] at h5; cases h5
        | closed _ _ h5 =>
          exact (heard_reader h hg hr hs okB nexB h5).resolve_left hm
        | late _ _ h5 => exact absurd h5 timely
    obtain ⟨r, hend⟩ := hend
    -- what has been delivered is the beginning of what has been said before exit
    have hpre : w.server.io.delivered <+: said.map Spec.heard := by
      rw [hx, List.map_append] at hd
      rcases List.prefix_or_prefix_of_prefix hd (List.prefix_append _ _) with h1 | h1
      · exact h1
      · obtain ⟨t, ht⟩ := h1
        cases t with
        | nil => rw [← ht, List.append_nil]; exact List.prefix_refl _
        | cons x t =>
          rw [← ht, List.prefix_append_right_inj, List.map_cons, List.cons_prefix_cons] at hd
          exact absurd (by rw [← ht, hd.1]; simp [Spec.heard]; right; left; rfl) hm
    constructor
    · intro he
      obtain ⟨_, hb⟩ := hfin.over true he
      obtain ⟨happ, h1⟩ := hb.1 rfl
      rcases (hfin.over true he).1 with ⟨r', h2, h3⟩ | ⟨h2, _⟩
      · rw [happ] at h3
        injection h3 with h3
        subst h3
        have h4 := shape (process := process) w.server.io.delivered
        rw [h2] at h4
        obtain ⟨early, id, ip, v, pre, sid, rest, _, _, _, h5⟩ := h4
        exact absurd (by rw [h5]; simp) (noSd sid)
      · rw [hend] at h2; cases h2
    · intro hses
      have := (expecting_iff.1 (expecting_prefix (.inr (.inr (.inl hses))) hpre)).1
      rw [hend] at this; cases this

omit [FloatText] in
/-- What follows what is taken for a response does not matter, if it is not exit, nor shutdown. -/
theorem session_response {a b : List Message} {r : Response} (hb : Spec.NoShutdown b)
    (hx : Message.notification .exit ∉ b) :
    Spec.Session process (a ++ .response r :: b) ↔ Spec.Session process a := by
  constructor
  · intro h
    obtain ⟨h1, h2⟩ := session_iff.1 h
    refine session_iff.2 ⟨?_, fun hm => h2 (List.mem_append_left _ hm)⟩
    rw [feed_append] at h1
    revert h1
    have hts := feed_toSend (process := process) (a := .start) rfl a
    revert hts
    generalize (feed process .start a).1 = x
    intro hts h1
    rcases rests hts with h3 | ⟨r', rfl⟩
    · cases x <;> simp only [App.receives, Bool.false_eq_true] at h3
      · change (feed process (.ended _) b).1 = _ at h1
        rw [feed_ended] at h1; cases h1
      · change (feed process (.ended _) b).1 = _ at h1
        rw [feed_ended] at h1; cases h1
      · rfl
      · change (feed process (.ended _) b).1 = _ at h1
        rw [feed_ended] at h1; cases h1
    · rw [feed_ended] at h1; cases h1
  · rintro ⟨early, id, ip, v, pre, h1, h2, h3, h4, rfl⟩
    refine ⟨early, id, ip, v, pre ++ .response r :: b, h1, h2, ?_, ?_, by simp [Spec.session]⟩
    · intro i hi
      simp only [List.mem_append, List.mem_cons, reduceCtorEq, false_or] at hi
      rcases hi with hi | hi
      · exact h3 i hi
      · exact hb i hi
    · simp [h4, hx]

/-- C140: in particular with shutdown before exit, wherever in between: the server exits with success exactly if what
the client has said before shutdown is a session.  Shutdown itself is taken for a response, which ends a handshake and is
ignored in a session. -/
theorem C140_shutdown {kc ks : Kind} {w : World} {as : List EndToEnd.Ev} (h : EndToEnd.Steps kc ks process {} as w)
    (hg : w.client.gone = false) (hr : w.client.io.rxAlive = true) (ht : w.client.io.txAlive = false)
    (hs : ∀ m ∈ w.client.io.accepted, Spec.Sayable m)
    {said between more : List Message} {sid : RequestId}
    (hx : w.client.io.accepted = said ++ .request (.shutdown sid) :: (between ++ .notification .exit :: more))
    (hne : Message.notification .exit ∉ said ++ between)
    (hc : ∀ m ∈ Spec.answers process (w.client.io.accepted.map Spec.heard), Spec.Carried m)
    (hq : EndToEnd.Quiet kc ks process w) :
    w.server.exit ≠ none ∧ (w.server.exit = some true ↔ Spec.Session process (said.map Spec.heard)) := by
  simp only [List.mem_append, not_or] at hne
  have := C140_exit h hg hr ht hs (said := said ++ .request (.shutdown sid) :: between) (more := more)
    (by rw [hx]; simp) (by simp [hne.1, hne.2]) hc hq
  refine ⟨this.1, this.2.trans ?_⟩
  rw [List.map_append, List.map_cons]
  exact session_response (heard_noShutdown _) (heard_noExit hne.2)

/-- C140: so the exit status does not tell whether shutdown has been sent: of two clients that use this library and that
have said the same session, then exit, and one of them shutdown before exit, both see the server exit with success.  By
the documentation one of them sees it exit with an error (C139). -/
theorem C140_same {kc ks kc' ks' : Kind} {w w' : World} {as as' : List EndToEnd.Ev}
    (h : EndToEnd.Steps kc ks process {} as w) (h' : EndToEnd.Steps kc' ks' process {} as' w')
    (hg : w.client.gone = false) (hr : w.client.io.rxAlive = true) (ht : w.client.io.txAlive = false)
    (hg' : w'.client.gone = false) (hr' : w'.client.io.rxAlive = true) (ht' : w'.client.io.txAlive = false)
    {said : List Message} {sid : RequestId} (hses : Spec.Session process (said.map Spec.heard))
    (hx : w.client.io.accepted = said ++ [.notification .exit])
    (hx' : w'.client.io.accepted = said ++ [.request (.shutdown sid), .notification .exit])
    (hs : ∀ m ∈ w'.client.io.accepted, Spec.Sayable m)
    (hc : ∀ m ∈ Spec.answers process (said.map Spec.heard), Spec.Carried m)
    (hq : EndToEnd.Quiet kc ks process w) (hq' : EndToEnd.Quiet kc' ks' process w') :
    w.server.exit = some true ∧ w'.server.exit = some true := by
  have hne : Message.notification .exit ∉ said := by
    intro hm
    exact (session_feed hses).2 (List.mem_map.2 ⟨_, hm, rfl⟩)
  have hidle := (session_feed hses).1
  have e1 : Spec.answers process ((said ++ [Message.notification .exit]).map Spec.heard) =
      Spec.answers process (said.map Spec.heard) := by
    rw [answers_eq, answers_eq, List.map_append, feed_append, hidle]
    simp only [List.map_cons, List.map_nil]
    show _ ++ [] = _
    simp
  have e2 : Spec.answers process ((said ++ [Message.request (.shutdown sid), .notification .exit]).map Spec.heard) =
      Spec.answers process (said.map Spec.heard) := by
    rw [answers_eq, answers_eq, List.map_append, feed_append, hidle]
    simp only [List.map_cons, List.map_nil]
    show _ ++ [] = _
    simp
  have hsub : ∀ m ∈ w.client.io.accepted, Spec.Sayable m := by
    intro m hm
    refine hs m ?_
    rw [hx] at hm
    rw [hx']
    simp only [List.mem_append, List.mem_cons, List.not_mem_nil, or_false] at hm ⊢
    rcases hm with hm | hm
    · exact .inl hm
    · exact .inr (.inr hm)
  constructor
  · exact (C140_exit h hg hr ht hsub hx hne (by rw [hx, e1]; exact hc) hq).2.2 hses
  · exact (C140_shutdown h' hg' hr' ht' hs (between := []) (more := []) hx' (by simpa using hne)
      (by rw [hx', e2]; exact hc) hq').2.2 hses

/-- C140: and it comes to that: there is a run to that end (and no infinite one, `C96_terminates`). -/
theorem C140_ends {kc ks : Kind} {w : World} {as : List EndToEnd.Ev} (h : EndToEnd.Steps kc ks process {} as w)
    (hg : w.client.gone = false) (hr : w.client.io.rxAlive = true) (ht : w.client.io.txAlive = false)
    (hs : ∀ m ∈ w.client.io.accepted, Spec.Sayable m)
    {said more : List Message} (hx : w.client.io.accepted = said ++ .notification .exit :: more)
    (hne : Message.notification .exit ∉ said)
    (hc : ∀ m ∈ Spec.answers process (w.client.io.accepted.map Spec.heard), Spec.Carried m) :
    ∃ bs u, EndToEnd.Steps kc ks process w bs u ∧ (∀ a ∈ bs, a.free = false) ∧ u.server.exit ≠ none ∧
      (u.server.exit = some true ↔ Spec.Session process (said.map Spec.heard)) := by
  obtain ⟨bs, u, h1, h2, h3⟩ := world_settles kc ks process w
  obtain ⟨k1, k2, k3, k4⟩ := world_keeps h1 (fun e he => h3 _ he)
  obtain ⟨h4, h5⟩ := C140_exit (world_append h h1) (k1.trans hg) (k3.trans hr) (k4.trans ht)
    (by rw [k2]; exact hs) (k2.trans hx) hne (by rw [k2]; exact hc) h2
  exact ⟨bs, u, h1, h3, h4, h5⟩

end

/-! ### Concrete cases -/

section
attribute [local instance] Ext.sample FloatText.sample Dbg.sample

/-- A session as the server hears it, before shutdown. -/
def sampleTold : List Message :=
  [.request (.buildTargetSources (.i32 0) ⟨[]⟩), .request (.initializeBuild (.i32 1) sampleInit),
   .notification .initialized, .request (.buildTargetSources (.i32 2) ⟨[]⟩)]

theorem sampleTold_said : sampleSaid = sampleTold ++ [.request (.shutdown (.i32 3))] := rfl

set_option maxRecDepth 5000 in
theorem sampleTold_session : Spec.Session sampleHandler (sampleTold.map Spec.heard) :=
  ⟨[.buildTargetSources (.i32 0) ⟨[]⟩], .i32 1, sampleInit, .ofJson (.str "c"),
    [.request (.buildTargetSources (.i32 2) ⟨[]⟩)], by simp [Spec.Early], rfl, by simp [Spec.NoShutdown], by simp, rfl⟩

theorem sampleTold_sayable : ∀ m ∈ sampleTold ++ [.request (.shutdown (.i32 3)), .notification .exit], Spec.Sayable m := by
  intro m hm
  simp only [List.mem_append, List.mem_cons, List.not_mem_nil, or_false] at hm
  rcases hm with hm | rfl | rfl
  · exact samplePlan.sayable m (by rw [sampleTold_said]; simp [hm])
  · exact samplePlan.sayable _ (by rw [sampleTold_said]; simp)
  · exact exit_sayable

set_option maxRecDepth 5000 in
theorem sampleTold_answers : ∀ m ∈ Spec.answers sampleHandler (sampleTold.map Spec.heard), Spec.Carried m := by
  intro m hm
  refine samplePlan.carried m ?_
  have : Spec.session [.buildTargetSources (.i32 0) ⟨[]⟩] (.i32 1) sampleInit
      [.request (.buildTargetSources (.i32 2) ⟨[]⟩), .response ⟨.i32 3, none, none⟩] =
      sampleTold.map Spec.heard ++ [.response ⟨.i32 3, none, none⟩] := rfl
  rw [this]
  exact (answers_prefix (List.prefix_append _ _)).subset hm

/-- Beside C140: a session, shutdown and exit; a session and exit.  Both servers exit with success. -/
example (kc ks : Kind) : ∃ as w as' w', EndToEnd.Steps kc ks sampleHandler {} as w ∧
    EndToEnd.Steps kc ks sampleHandler {} as' w' ∧
    w.client.io.accepted = sampleTold ++ [.notification .exit] ∧
    w'.client.io.accepted = sampleTold ++ [.request (.shutdown (.i32 3)), .notification .exit] ∧
    w.server.exit = some true ∧ w'.server.exit = some true := by
  obtain ⟨as, h⟩ := says_run kc ks sampleHandler (sampleTold ++ [.notification .exit])
  have h0 := EndToEnd.Steps.snoc h (.client (.own rfl (.dropTx _) (by simp) (by simp) (by simp)))
  obtain ⟨bs, u, h1, h2, h3⟩ := world_settles kc ks sampleHandler _
  obtain ⟨k1, k2, k3, k4⟩ := world_keeps h1 (fun e he => h3 _ he)
  obtain ⟨as', h'⟩ := says_run kc ks sampleHandler (sampleTold ++ [.request (.shutdown (.i32 3)), .notification .exit])
  have h0' := EndToEnd.Steps.snoc h' (.client (.own rfl (.dropTx _) (by simp) (by simp) (by simp)))
  obtain ⟨bs', u', h1', h2', h3'⟩ := world_settles kc ks sampleHandler _
  obtain ⟨k1', k2', k3', k4'⟩ := world_keeps h1' (fun e he => h3' _ he)
  exact ⟨_, u, _, u', world_append h0 h1, world_append h0' h1', k2, k2',
    C140_same (world_append h0 h1) (world_append h0' h1') k1 k3 k4 k1' k3' k4' sampleTold_session k2 k2'
      (by rw [k2']; exact sampleTold_sayable) sampleTold_answers h2 h2'⟩

/-- Beside C140: shutdown before the handshake, and then exit: the server exits with an error. -/
example (kc ks : Kind) : ∃ as w, EndToEnd.Steps kc ks sampleHandler {} as w ∧ w.server.exit = some false := by
  obtain ⟨as, h⟩ := says_run kc ks sampleHandler [.request (.shutdown (.i32 3)), .notification .exit]
  have h0 := EndToEnd.Steps.snoc h (.client (.own rfl (.dropTx _) (by simp) (by simp) (by simp)))
  obtain ⟨bs, u, h1, h2, h3⟩ := world_settles kc ks sampleHandler _
  have hh := world_append h0 h1
  obtain ⟨k1, k2, k3, k4⟩ := world_keeps h1 (fun e he => h3 _ he)
  have k2 : u.client.io.accepted = [.request (.shutdown (.i32 3)), .notification .exit] := k2
  obtain ⟨h4, h5⟩ := C140_shutdown (said := []) (between := []) (more := []) (world_append h0 h1) k1 k3 k4
    (by rw [k2]; exact fun m hm => sampleTold_sayable m (List.mem_append_right _ hm)) k2 (by simp) (by
      rw [k2]
      have : Spec.answers sampleHandler ([Message.request (.shutdown (.i32 3)), .notification .exit].map Spec.heard) = [] := by
        rw [answers_eq]; rfl
      rw [this]; simp) h2
  refine ⟨_, u, world_append h0 h1, ?_⟩
  cases e : u.server.exit with
  | none => exact absurd e h4
  | some b =>
    cases b with
    | false => rfl
    | true =>
      obtain ⟨early, id, ip, v, pre, _, _, _, _, h6⟩ := h5.1 e
      have := congrArg List.length h6
      simp [Spec.session] at this

/-- Beside C140_exit: exit before the handshake, and shutdown after it, which nobody hears: an error. -/
example (kc ks : Kind) : ∃ as w, EndToEnd.Steps kc ks sampleHandler {} as w ∧ w.server.exit = some false := by
  obtain ⟨as, h⟩ := says_run kc ks sampleHandler [.notification .exit, .request (.shutdown (.i32 3))]
  have h0 := EndToEnd.Steps.snoc h (.client (.own rfl (.dropTx _) (by simp) (by simp) (by simp)))
  obtain ⟨bs, u, h1, h2, h3⟩ := world_settles kc ks sampleHandler _
  have hh := world_append h0 h1
  obtain ⟨k1, k2, k3, k4⟩ := world_keeps h1 (fun e he => h3 _ he)
  have k2 : u.client.io.accepted = [.notification .exit, .request (.shutdown (.i32 3))] := k2
  obtain ⟨h4, h5⟩ := C140_exit (said := []) (world_append h0 h1) k1 k3 k4
    (by
      rw [k2]
      intro m hm
      refine sampleTold_sayable m (List.mem_append_right _ ?_)
      simp only [List.mem_cons, List.not_mem_nil, or_false] at hm ⊢
      exact hm.symm) k2 (by simp) (by
      rw [k2]
      have : Spec.answers sampleHandler ([Message.notification .exit, .request (.shutdown (.i32 3))].map Spec.heard) = [] := by
        rw [answers_eq]; rfl
      rw [this]; simp) h2
  refine ⟨_, u, world_append h0 h1, ?_⟩
  cases e : u.server.exit with
  | none => exact absurd e h4
  | some b =>
    cases b with
    | false => rfl
    | true =>
      obtain ⟨early, id, ip, v, pre, _, _, _, _, h6⟩ := h5.1 e
      have := congrArg List.length h6
      simp [Spec.session] at this

/-- Beside C140: a run to success, and what it tells. -/
example (kc ks : Kind) : ∃ as w, EndToEnd.Steps kc ks sampleHandler {} as w ∧ w.server.exit = some true ∧
    ∃ said more, w.client.io.accepted = said ++ more ∧ Spec.Session sampleHandler (said.map Spec.heard) := by
  obtain ⟨as, h⟩ := says_run kc ks sampleHandler (sampleTold ++ [.request (.shutdown (.i32 3)), .notification .exit])
  have h0 := EndToEnd.Steps.snoc h (.client (.own rfl (.dropTx _) (by simp) (by simp) (by simp)))
  have hx : sampleTold ++ [.request (.shutdown (.i32 3)), .notification .exit] =
      sampleSaid ++ Message.notification .exit :: [] := rfl
  have hses : Spec.Session sampleHandler (sampleSaid.map Spec.heard) := by
    rw [sampleTold_said, List.map_append]
    exact (session_response (by simp [Spec.NoShutdown]) (by simp)).2 sampleTold_session
  obtain ⟨bs, u, h1, h2, h3, h4⟩ := C140_ends h0 rfl rfl rfl sampleTold_sayable hx samplePlan.noExit (by
    intro m hm
    refine sampleTold_answers m ?_
    have : Spec.answers sampleHandler ((sampleTold ++ [Message.request (.shutdown (.i32 3)), .notification .exit]).map Spec.heard) =
        Spec.answers sampleHandler (sampleTold.map Spec.heard) := by
      rw [answers_eq, answers_eq]; rfl
    rw [← this]; exact hm)
  have k2 := (world_keeps h1 (fun e he => h2 _ he)).2.1
  obtain ⟨said, more, h5, h6, _⟩ := C140_success (world_append h0 h1) (by rw [k2]; exact sampleTold_sayable) (h4.2 hses)
  exact ⟨_, u, world_append h0 h1, h4.2 hses, said, more, h5, h6⟩

end
end Bsp
