/-
C108: when the process at one end is gone, the other one comes to an end.
C109: a handshake that goes wrong ends both processes.
-/
import Verif.Props.EndToEnd
import Verif.Props.Outcome

namespace Bsp
open Frame Json Transport
open Link (Move LinkStep Side Quiet)
open Conn (Dbg reply)
open Session (Proc App onRecv onSent toSend kindOf)
open EndToEnd (World side)

section
variable [LawfulExt] [FloatText]

/-- Threads that have no step left, the input having ended and the sender having been dropped, have both ended. -/
theorem ended_rest {k : Kind} {s : State} (hr : s.inEnd ≠ none) (ht : s.txAlive = false)
    (hn : ∀ a s', Transport.Step k s a s' → a = .read ∨ a = .undeliverable ∨ (∃ m, a = .deliver m) ∨
      (∃ bs, a = .write bs) ∨ a = .written ∨ a = .close → False) :
    s.reader.ended = true ∧ s.writer.ended = true := by
  constructor
  · cases e : s.reader with
    | reading =>
      cases e2 : s.inEnd with
      | none => exact absurd e2 hr
      | some b =>
        exact (hn _ _ (.read _ (readMsg (⟨s.unread, b⟩ : Flat)) e (by simp [Settled, e2])) (.inl rfl)).elim
    | sending m =>
      cases hx : s.rxAlive with
      | true => exact (hn _ _ (.deliver _ m e hx) (.inr (.inr (.inl ⟨_, rfl⟩)))).elim
      | false => exact (hn _ _ (.undeliverable _ m e hx) (.inr (.inl rfl))).elim
    | _ => rfl
  · cases e : s.writer with
    | idle => exact (hn _ _ (.close _ e ht) (by simp)).elim
    | writing r =>
      cases r with
      | nil => exact (hn _ _ (.written _ e) (by simp)).elim
      | cons c r => exact (hn _ _ (.write _ [c] r e (by simp)) (by simp)).elim
    | _ => rfl

/-- When both threads have ended `join` returns. -/
theorem join_returns {k : Kind} {s : State} (h : s.reader.ended = true ∧ s.writer.ended = true) :
    join k s ≠ .waiting := by
  obtain ⟨h1, h2⟩ := h
  unfold join
  cases e : s.reader with
  | reading => rw [e] at h1; cases h1
  | sending m => rw [e] at h1; cases h1
  | failed => exact nofun
  | panicked =>
    have : ¬ (k = .stdio ∧ s.writer.ended = false) := by rw [h2]; exact fun h => nomatch h.2
    simp only [this, if_false]
    exact nofun
  | done =>
    cases e2 : s.writer with
    | idle => rw [e2] at h2; cases h2
    | writing r => rw [e2] at h2; cases h2
    | _ => exact nofun

/-- The input of a side whose other side is closed has ended, when nothing can happen any more. -/
theorem gone_inEnd {ka kb : Kind} {x y : Side} (hp : x.io.arrived <+: y.io.out) (hg : x.gone = false)
    (hc : y.closed kb = true) (hn : ∀ act x', Move ka kb x y (.act act) x' → Link.Ev.app (.act act) = true) :
    x.io.inEnd ≠ none := by
  intro he
  obtain ⟨t, ht⟩ := hp
  by_cases hne : t = []
  · rw [hne, List.append_nil] at ht
    have := hn _ _ (.fin hg hc ht (.hangUp _ false he))
    cases this
  · have := hn _ _ (.arrive hg hne (by rw [ht]; exact List.prefix_refl _) (.arrive _ t he))
    cases this

/-- C108: two processes connected to each other, whatever they have sent, and whatever has become of it.  When the
right one is gone, the left one has dropped its sender and goes on receiving (or has dropped its receiver too), and
nothing can happen any more, then `join` of the left one has returned: with Ok, an error or a panic. -/
theorem C108_join {ka kb : Kind} {l : Link.Link} (hr : Link.Reachable ka kb l) (hb : l.b.gone = true)
    (ha : l.a.gone = false) (ht : l.a.io.txAlive = false) (hq : Quiet ka kb l) :
    join ka l.a.io ≠ .waiting := by
  obtain ⟨_, _, _, p4⟩ := pair_inv (link_pair hr)
  have hin := gone_inEnd (ka := ka) (kb := kb) p4 ha (by simp [Side.closed, hb])
    (fun act x' hm => hq _ _ (.left hm))
  refine join_returns (ended_rest (k := ka) hin ht ?_)
  intro a s' hs hk
  have : Link.Ev.app (.act a) = true := by
    refine hq _ _ (.left (.own ha hs ?_ ?_ ?_)) <;> rcases hk with rfl | rfl | ⟨_, rfl⟩ | ⟨_, rfl⟩ | rfl | rfl <;> simp
  rcases hk with rfl | rfl | ⟨_, rfl⟩ | ⟨_, rfl⟩ | rfl | rfl <;> cases this

/-- C108: and it gets there: there is a run to that end, and no longer one than the work that is left. -/
theorem C108_join_ends {ka kb : Kind} {l : Link.Link} (hr : Link.Reachable ka kb l) (hb : l.b.gone = true)
    (ha : l.a.gone = false) (ht : l.a.io.txAlive = false) :
    (∃ n l', Link.Runs ka kb l n l' ∧ join ka l'.a.io ≠ .waiting) ∧
    ∃ bound, ∀ n l', Link.Runs ka kb l n l' → n ≤ bound := by
  obtain ⟨h1, n, l', h2, h3⟩ := C92_rest hr
  refine ⟨⟨n, l', h2, ?_⟩, h1⟩
  obtain ⟨⟨a1, _, _, a4⟩, ⟨b1, _⟩, _⟩ := runs_keeps h2
  exact C108_join (runs_reachable h2 hr).1 (b1.trans hb) (a1.trans ha) (a4.trans ht) h3

variable [Dbg] {process : InitializeBuild → Option Value}

/-- C108: the process of the README, whose input has ended: whatever it has received, wherever it has ended, and even
if writes have failed, once it can go no further it has exited. -/
theorem C108_exits {k : Kind} {p : Proc} {as : List Session.Act} (h : Session.Steps k process {} as p)
    (hi : p.io.inEnd ≠ none) (hq : Session.Quiet k process p) : ∃ b, p.exit = some b := by
  cases hex : p.exit with
  | some b => exact ⟨b, rfl⟩
  | none =>
  exfalso
  have no : ∀ {a q}, Session.Step k process p a q → a ≠ .peer → a ≠ .timeout → False := by
    intro a q hs h1 h2
    rcases hq _ _ hs with h | h
    · exact h1 h
    · exact h2 h
  have thread : ∀ {a s'}, Transport.Step k p.io a s' → kindOf a = some .thread → False :=
    fun h1 h2 => no (.io hex h1 h2) (by simp) (by simp)
  have hg := (mainInv h).gone
  cases ht : toSend p.app with
  | some m =>
    have htx : p.io.txAlive = true := by
      cases h1 : p.io.txAlive with
      | true => rfl
      | false => obtain ⟨r, h⟩ := hg (.inr h1); rw [h] at ht; cases ht
    cases e : p.io.writer with
    | idle => exact no (.send hex ht (.accept _ m e htx)) (by simp) (by simp)
    | writing r =>
      obtain ⟨a, s', h1, h2⟩ := writer_moves (k := k) e
      exact thread h1 h2
    | _ => exact no (.unsent hex ht (by rw [e]; rfl)) (by simp) (by simp)
  | none =>
  rcases rests ht with hrec | ⟨r, hend⟩
  · have hrx : p.io.rxAlive = true := by
      cases h1 : p.io.rxAlive with
      | true => rfl
      | false => obtain ⟨r, h⟩ := hg (.inl h1); rw [h] at hrec; cases hrec
    cases e : p.io.reader with
    | reading =>
      cases e2 : p.io.inEnd with
      | none => exact hi e2
      | some b => exact thread (.read _ (readMsg (⟨p.io.unread, b⟩ : Flat)) e (by simp [Settled, e2])) rfl
    | sending m => exact no (.recv hex hrec (.deliver _ m e hrx)) (by simp) (by simp)
    | _ => exact no (.closed hex hrec (by rw [e]; rfl)) (by simp) (by simp)
  · have hrx : p.io.rxAlive = false := by
      cases h1 : p.io.rxAlive with
      | false => rfl
      | true => exact (no (.dropRx hex hend h1) (by simp) (by simp)).elim
    have htx : p.io.txAlive = false := by
      cases h1 : p.io.txAlive with
      | false => rfl
      | true => exact (no (.dropTx hex hend h1) (by simp) (by simp)).elim
    by_cases hok : r = .ok ()
    · subst hok
      refine no (.finish hex hend hrx htx (join_returns (ended_rest (k := k) hi htx ?_))) (by simp) (by simp)
      intro a s' hs hk
      rcases hk with rfl | rfl | ⟨_, rfl⟩ | ⟨_, rfl⟩ | rfl | rfl
      · exact thread hs rfl
      · exact thread hs rfl
      · cases hs with | deliver _ _ h1 => rw [hrx] at h1; cases h1
      · exact thread hs rfl
      · exact thread hs rfl
      · exact thread hs rfl
    · exact no (.abort hex hend hok hrx htx) (by simp) (by simp)

/-- The connection of the two processes is one of `Link`. -/
theorem world_link {kc ks : Kind} {w : World} {as : List EndToEnd.Ev} (h : EndToEnd.Steps kc ks process {} as w) :
    Link.Reachable kc ks (linkOf w) ∧ ∃ bs, Session.Steps ks process {} bs w.server := by
  generalize hw : ({} : World) = w0 at h
  induction h with
  | nil => subst hw; exact ⟨.start, [], .nil _⟩
  | @snoc as u a v _ hs ih =>
    obtain ⟨h1, bs, h2⟩ := ih
    cases hs with
    | client hm => exact ⟨.step h1 (.left (l := linkOf u) hm), bs, h2⟩
    | server hst hpe =>
      refine ⟨?_, _, .snoc h2 hst⟩
      rcases (server_move hst hpe).2 with hm | ⟨ev, hm⟩
      · simp only [linkOf, hm]; exact h1
      · exact .step h1 (.right (l := linkOf u) hm)

/-- C108: a client is connected to the server of the README, and is gone: it has exited, or has been killed, at
whatever moment, whatever it had sent.  When nothing can happen any more, the server has exited. -/
theorem C108_server {kc ks : Kind} {w : World} {as : List EndToEnd.Ev}
    (h : EndToEnd.Steps kc ks process {} as w) (hg : w.client.gone = true)
    (hq : EndToEnd.Quiet kc ks process w) : ∃ b, w.server.exit = some b := by
  obtain ⟨hl, bs, hs⟩ := world_link h
  cases hex : w.server.exit with
  | some b => exact ⟨b, rfl⟩
  | none =>
  rw [← hex]
  refine C108_exits hs ?_ (quiet_server hq)
  obtain ⟨_, _, p3, _⟩ := pair_inv (link_pair hl)
  simp only [linkOf, side] at p3
  intro he
  obtain ⟨t, ht⟩ := p3
  have go : ∀ {act s'}, Transport.Step ks w.server.io act s' → kindOf act = some .peer →
      Move ks kc (side w.server) w.client (.act act) (side { w.server with io := s' }) → False := by
    intro act s' h1 h2 h3
    have := hq _ _ (.server (.io hex h1 h2) (fun _ => ⟨act, h2, h3⟩))
    cases this
  by_cases hne : t = []
  · rw [hne, List.append_nil] at ht
    have hs := Transport.Step.hangUp (k := ks) w.server.io false he
    exact go hs rfl (by
      simp only [side, hex]
      exact .fin rfl (by simp [Side.closed, hg]) ht hs)
  · have hs := Transport.Step.arrive (k := ks) w.server.io t he
    exact go hs rfl (by
      simp only [side, hex]
      exact .arrive rfl hne (by rw [ht]; exact List.prefix_refl _) hs)

/-- C108: and it gets there, by itself (and by `C96_terminates` it cannot fail to). -/
theorem C108_server_ends {kc ks : Kind} {w : World} {as : List EndToEnd.Ev}
    (h : EndToEnd.Steps kc ks process {} as w) (hg : w.client.gone = true) :
    ∃ bs u, EndToEnd.Steps kc ks process w bs u ∧ (∀ a ∈ bs, a.free = false) ∧ ∃ b, u.server.exit = some b := by
  obtain ⟨bs, u, h1, h2, h3⟩ := world_settles kc ks process w
  obtain ⟨k1, _⟩ := world_keeps h1 (fun e he => h3 _ he)
  exact ⟨bs, u, h1, h3, C108_server (world_append h h1) (k1.trans hg) h2⟩

/-- C108: likewise for the client: when the server has exited, with success or not, and the client has dropped its
sender, its `join` has returned once nothing can happen any more. -/
theorem C108_client {kc ks : Kind} {w : World} {as : List EndToEnd.Ev}
    (h : EndToEnd.Steps kc ks process {} as w) {b : Bool} (he : w.server.exit = some b) (hg : w.client.gone = false)
    (ht : w.client.io.txAlive = false) (hq : EndToEnd.Quiet kc ks process w) :
    join kc w.client.io ≠ .waiting := by
  obtain ⟨hl, _⟩ := world_link h
  refine C108_join (l := linkOf w) hl (by simp [linkOf, side, he]) hg ht ?_
  intro ev l' hm
  cases hm with
  | left hm => exact hq _ _ (.client hm)
  | right hm => exfalso; cases hm <;> simp_all [linkOf, side]

/-! ### C109 -/

omit [Dbg] in
/-- A write fails, and an input ends, only if the other side is closed. -/
theorem link_blame {ka kb : Kind} {l : Link.Link} (hr : Link.Reachable ka kb l) :
    (l.b.closed kb = false →
      l.a.io.inEnd = none ∧ l.a.io.writer ≠ .failed ∧ l.a.io.writer ≠ .panicked) ∧
    (l.a.closed ka = false →
      l.b.io.inEnd = none ∧ l.b.io.writer ≠ .failed ∧ l.b.io.writer ≠ .panicked) := by
  induction hr with
  | start => exact ⟨fun _ => ⟨rfl, by simp, by simp⟩, fun _ => ⟨rfl, by simp, by simp⟩⟩
  | step _ hs ih =>
    have before : ∀ {k : Kind} {x x' : Side}, Grows x x' → x'.closed k = false → x.closed k = false := by
      intro k x x' g h
      cases e : x.closed k with
      | false => rfl
      | true => rw [grows_closed g e] at h; cases h
    obtain ⟨g1, g2⟩ := link_grows hs
    constructor
    · intro hc
      have h0 := before g2 hc
      obtain ⟨i1, i2⟩ := ih.1 h0
      cases hs with
      | left hm => exact ⟨open_inEnd hm i1 h0, open_writer hm i2 h0⟩
      | right hm => exact ⟨i1, i2⟩
    · intro hc
      have h0 := before g1 hc
      obtain ⟨i1, i2⟩ := ih.2 h0
      cases hs with
      | left hm => exact ⟨i1, i2⟩
      | right hm => exact ⟨open_inEnd hm i1 h0, open_writer hm i2 h0⟩

omit [Dbg] in
/-- While the left process is there and receives, the writes of the right one do not fail: it would have to be closed
for the left one to be. -/
theorem right_writes {ka kb : Kind} {l : Link.Link} (hr : Link.Reachable ka kb l) (hg : l.a.gone = false)
    (hx : l.a.io.rxAlive = true) (ok : ∀ m ∈ l.b.io.accepted, Spec.Sayable m)
    (hn : Message.notification .exit ∉ l.b.io.accepted) :
    l.b.io.writer ≠ .failed ∧ l.b.io.writer ≠ .panicked := by
  induction hr with
  | start => exact ⟨by simp, by simp⟩
  | @step l ev l' hr hs ih =>
    obtain ⟨g1, g2⟩ := link_grows hs
    have hg0 : l.a.gone = false := by
      cases e : l.a.gone with
      | false => rfl
      | true => rw [g1.gone e] at hg; cases hg
    have hx0 := g1.rx hx
    have ok0 : ∀ m ∈ l.b.io.accepted, Spec.Sayable m := fun m hm => ok m (g2.accepted.subset hm)
    have hn0 : Message.notification .exit ∉ l.b.io.accepted := fun hm => hn (g2.accepted.subset hm)
    have ih := ih hg0 hx0 ok0 hn0
    cases hs with
    | left hm => exact ih
    | right hm =>
      cases hc : l.a.closed ka with
      | false => exact open_writer hm ih hc
      | true =>
        have hend : l.a.io.reader.ended = true := (closed_ended (by simp [hg0]) hc).1
        have hin : l.a.io.inEnd ≠ none := by
          intro he
          have := open_reader (pair_swap (link_pair hr)) ok0 hn0 he hx0
          simp only at this
          rw [hend] at this; cases this
        have hb : l.b.closed kb = true := by
          cases e : l.b.closed kb with
          | true => rfl
          | false => exact absurd ((link_blame hr).1 e).1 hin
        have hgb : l.b.gone = false := by cases hm <;> assumption
        have hw : l.b.io.writer.ended = true := (closed_ended (by simp [hgb]) hb).2
        rw [g2.writer hw]
        exact ih

/-- If a write has failed, the writer is in that state. -/
theorem session_wrote {k : Kind} {p : Proc} {as : List Session.Act} (h : Session.Steps k process {} as p)
    (hw : p.io.writer ≠ .failed ∧ p.io.writer ≠ .panicked) : Session.Act.writeFails ∉ as := by
  have key : ∀ {p0 as p}, Session.Steps k process p0 as p → Session.Act.writeFails ∈ as →
      p.io.writer = writeError k := by
    intro p0 as p h
    induction h with
    | nil => intro h; cases h
    | @snoc as q a r h1 h2 ih =>
      intro h
      rcases List.mem_append.1 h with h | h
      · have ih := ih h
        cases h2 with
        | io _ hs hk => exact (io_same hs hk).2.2.2.2.2.1 ih
        | recv _ _ hs => cases hs with | deliver _ _ _ => exact ih
        | send _ _ hs =>
          cases hs with
          | accept _ hi _ => rw [hi] at ih; cases k <;> cases ih
        | _ => exact ih
      · simp only [List.mem_singleton] at h
        subst h
        cases h2 with
        | io _ hs hk =>
          cases hs with
          | writeFails _ _ => rfl
          | _ => simp [kindOf] at hk
  intro hm
  have := key h hm
  cases k
  · exact hw.1 this
  · exact hw.2 this

/-- A handshake that goes wrong, in the messages that the server hears: after requests that are refused comes a message
that is not a request, or a build/initialize at which the handler panics, or a build/initialize that is not followed by
initialized. -/
inductive Spec.Botched (process : InitializeBuild → Option Value) : List Message → Prop
  | unexpected {early : List Request} {m : Message} {rest : List Message} : (∀ r ∈ early, Spec.Early r) →
      (∀ r, m ≠ .request r) → Spec.Botched process (early.map .request ++ m :: rest)
  | panics {early : List Request} {id : RequestId} {ip : InitializeBuild} {rest : List Message} :
      (∀ r ∈ early, Spec.Early r) → process ip = none →
      Spec.Botched process (early.map .request ++ .request (.initializeBuild id ip) :: rest)
  | unconfirmed {early : List Request} {id : RequestId} {ip : InitializeBuild} {v : Value} {m : Message}
      {rest : List Message} : (∀ r ∈ early, Spec.Early r) → process ip = some v → m ≠ .notification .initialized →
      Spec.Botched process (early.map .request ++ .request (.initializeBuild id ip) :: m :: rest)

omit [FloatText] in
theorem botched_round {a : App} (ha : a = .start ∨ a = .confirming) {m : Message} {b : App}
    (hb : onRecv process a (some m) = b) (hr : ∃ r, b = .ended r ∧ r ≠ .ok ()) : (round process a m).1 = b := by
  obtain ⟨r, rfl, _⟩ := hr
  unfold round
  rw [hb]; rfl

omit [FloatText] in
theorem botched_end {ms : List Message} (hb : Spec.Botched process ms) :
    ∃ r, (feed process .start ms).1 = .ended r ∧ r ≠ .ok () := by
  cases hb with
  | @unexpected early m rest he hm =>
    have : ∃ r, onRecv process .start (some m) = .ended r ∧ r ≠ .ok () := by
      cases m with
      | request q => exact absurd rfl (hm q)
      | response q => exact ⟨_, rfl, nofun⟩
      | notification q => exact ⟨_, rfl, nofun⟩
    obtain ⟨r, h1, h2⟩ := this
    refine ⟨r, ?_, h2⟩
    simp only [feed_append, feed_early he, feed, botched_round (.inl rfl) h1 ⟨r, rfl, h2⟩, feed_ended]
  | @panics early id ip rest he hm =>
    have h1 : onRecv process .start (some (.request (.initializeBuild id ip))) = .ended .panic := by simp [onRecv, hm]
    refine ⟨.panic, ?_, nofun⟩
    simp only [feed_append, feed_early he, feed, botched_round (.inl rfl) h1 ⟨_, rfl, nofun⟩, feed_ended]
  | @unconfirmed early id ip v m rest he hv hm =>
    have h1 : onRecv process .start (some (.request (.initializeBuild id ip))) = .replying id v := by simp [onRecv, hv]
    have h2 : round process .start (.request (.initializeBuild id ip)) = (.confirming, [.response (.ok id v)]) := by
      unfold round; rw [h1]; rfl
    have : ∃ r, onRecv process .confirming (some m) = .ended r ∧ r ≠ .ok () := by
      cases m with
      | request q => exact ⟨_, rfl, nofun⟩
      | response q => exact ⟨_, rfl, nofun⟩
      | notification q => cases q <;> first | exact absurd rfl hm | exact ⟨_, rfl, nofun⟩
    obtain ⟨r, h3, h4⟩ := this
    refine ⟨r, ?_, h4⟩
    simp only [feed_append, feed_early he, feed, h2, botched_round (.inr rfl) h3 ⟨r, rfl, h4⟩, feed_ended]

omit [LawfulExt] [FloatText] [Dbg] in
theorem prefix_split {α : Type} {ds l t : List α} {x : α} (h : ds <+: l ++ x :: t) :
    ds <+: l ∨ ∃ ds', ds = l ++ x :: ds' ∧ ds' <+: t := by
  induction l generalizing ds with
  | nil =>
    cases ds with
    | nil => exact .inl List.nil_prefix
    | cons d ds =>
      obtain ⟨e, h1⟩ := List.cons_prefix_cons.1 h
      exact .inr ⟨ds, by rw [e]; rfl, h1⟩
  | cons y l ih =>
    cases ds with
    | nil => exact .inl List.nil_prefix
    | cons d ds =>
      obtain ⟨rfl, h1⟩ := List.cons_prefix_cons.1 h
      rcases ih h1 with h2 | ⟨ds', rfl, h2⟩
      · exact .inl (List.cons_prefix_cons.2 ⟨rfl, h2⟩)
      · exact .inr ⟨ds', rfl, h2⟩

omit [FloatText] in
theorem early_prefix {early : List Request} (he : ∀ r ∈ early, Spec.Early r) {ds : List Message}
    (h : ds <+: early.map .request) : (feed process .start ds).1 = .start := by
  obtain ⟨early', h1, rfl⟩ := List.prefix_map_iff.1 h
  rw [feed_early (fun r hr => he r (h1.subset hr))]

omit [FloatText] in
/-- The server on hearing a part of that: still in the handshake, or out of it with an error. -/
theorem botched_feed {ms : List Message} (hb : Spec.Botched process ms) {ds : List Message} (hd : ds <+: ms) :
    (feed process .start ds).1 = .start ∨ (feed process .start ds).1 = .confirming ∨
      ∃ r, (feed process .start ds).1 = .ended r ∧ r ≠ .ok () := by
  cases hb with
  | unexpected he hm =>
    rcases prefix_split hd with h | ⟨ds', rfl, _⟩
    · exact .inl (early_prefix he h)
    · exact .inr (.inr (botched_end (.unexpected he hm)))
  | panics he hm =>
    rcases prefix_split hd with h | ⟨ds', rfl, _⟩
    · exact .inl (early_prefix he h)
    · exact .inr (.inr (botched_end (.panics he hm)))
  | @unconfirmed early id ip v m rest he hv hm =>
    rcases prefix_split hd with h | ⟨ds', rfl, h⟩
    · exact .inl (early_prefix he h)
    · cases ds' with
      | nil =>
        have h1 : onRecv process .start (some (.request (.initializeBuild id ip))) = .replying id v := by
          simp [onRecv, hv]
        have h2 : round process .start (.request (.initializeBuild id ip)) = (.confirming, [.response (.ok id v)]) := by
          unfold round; rw [h1]; rfl
        exact .inr (.inl (by simp only [feed_append, feed_early he, feed, h2]))
      | cons d ds' =>
        obtain ⟨rfl, _⟩ := List.cons_prefix_cons.1 h
        exact .inr (.inr (botched_end (.unconfirmed he hv hm)))

omit [FloatText] [Dbg] in
theorem botched_more {ms : List Message} (hb : Spec.Botched process ms) (more : List Message) :
    Spec.Botched process (ms ++ more) := by
  cases hb with
  | unexpected he hm => rw [List.append_assoc]; exact .unexpected he hm
  | panics he hm => rw [List.append_assoc]; exact .panics he hm
  | unconfirmed he hv hm => rw [List.append_assoc]; exact .unconfirmed he hv hm

/-- The process of the README hears a handshake that goes wrong.  Whatever it has
received so far, if it is out of the loop it is with an error. -/
theorem botched_app {k : Kind} {p : Proc} {as : List Session.Act} (h : Session.Steps k process {} as p)
    (hw : Session.Act.writeFails ∉ as) {ms : List Message} (hb : Spec.Botched process ms) (hd : p.io.delivered <+: ms)
    {r : Conn.Out Unit} (he : p.app = .ended r) : r ≠ .ok () := by
  have hat := (mainInv h).at' (no_fail h hw)
  have hf := botched_feed hb hd
  cases hat with
  | rest h1 _ =>
    rcases hf with h2 | h2 | ⟨r', h2, h3⟩
    · rw [← h1, he] at h2; cases h2
    · rw [← h1, he] at h2; cases h2
    · rw [← h1, he] at h2; cases h2; exact h3
  | sending h1 => rw [he] at h1; cases h1
  | late h1 => rcases hf with h2 | h2 | ⟨r', h2, _⟩ <;> rw [h1] at h2 <;> cases h2
  | closed h1 h2 =>
    rcases hf with h3 | h3 | ⟨r', h3, _⟩
    · rw [h3, he] at h2; cases h2; exact nofun
    · rw [h3, he] at h2; cases h2; exact nofun
    · rw [h3] at h1; cases h1

theorem botched_exit {k : Kind} {p : Proc} {as : List Session.Act} (h : Session.Steps k process {} as p)
    (hw : Session.Act.writeFails ∉ as) {ms : List Message} (hb : Spec.Botched process ms) (hd : p.io.delivered <+: ms) :
    p.exit ≠ some true := by
  intro he
  obtain ⟨_, r, h1, h2⟩ := (mainInv h).exits true he
  have := botched_app h hw hb hd h1
  rcases h2 with ⟨_, h2⟩ | ⟨h2, _⟩
  · cases h2
  · exact this h2

/-- C109: the process of the README hears a handshake that goes wrong.  It does not exit with success, and once it can
go no further it has exited with an error. -/
theorem C109_process {k : Kind} {p : Proc} {as : List Session.Act} (h : Session.Steps k process {} as p)
    (hw : Session.Act.writeFails ∉ as) (hq : Session.Quiet k process p) {ms : List Message}
    (hb : Spec.Botched process ms) {bs rest : Bytes} (ha : p.io.arrived = bs ++ rest) (hc : Spec.Carries bs ms) :
    p.exit = some false := by
  have hd : p.io.delivered <+: ms ++ (Frame.readAll (⟨rest, false⟩ : Flat)).1 := by
    have h1 := C51_prefix (proc_reachable h) [] false
    rwa [List.append_nil, ha, readAll_carries hc] at h1
  have hb' := botched_more hb (Frame.readAll (⟨rest, false⟩ : Flat)).1
  rcases C71_nothing_pending h hw hq with ⟨b, h1⟩ | ⟨h1, _, h2, _⟩
  · cases b with
    | false => exact h1
    | true => exact absurd h1 (botched_exit h hw hb' hd)
  exfalso
  obtain ⟨t, ht⟩ := h2 bs ms rest ha hc
  obtain ⟨r, h3, _⟩ := botched_end (botched_more hb t)
  rw [ht] at h3
  cases (mainInv h).at' (no_fail h hw) with
  | rest h4 _ => rw [h4, h3] at h1; cases h1
  | sending h4 => rw [receives_toSend h1] at h4; cases h4
  | late h4 => rw [h3] at h4; cases h4
  | closed h4 => rw [h3] at h4; cases h4

omit [FloatText] in
/-- What the server sends are responses. -/
theorem feed_responses (ms : List Message) : ∀ (a : App), ∀ m ∈ (feed process a ms).2, ∃ r, m = .response r := by
  have key : ∀ {a : App} {m : Message}, toSend a = some m → ∃ r, m = .response r := by
    intro a m h
    cases a <;> simp only [toSend, Option.some.injEq, reduceCtorEq] at h <;> subst h
    · exact ⟨_, rfl⟩
    · exact ⟨_, rfl⟩
    · unfold reply; split <;> exact ⟨_, rfl⟩
    · exact ⟨_, rfl⟩
  induction ms with
  | nil => intro a m h; cases h
  | cons x ms ih =>
    intro a m h
    rcases List.mem_append.1 h with h | h
    · unfold round at h
      split at h
      · rename_i h1; rw [List.mem_singleton.1 h]; exact key h1
      · cases h
    · exact ih _ m h

omit [FloatText] in
theorem answers_responses (ms : List Message) : ∀ m ∈ Spec.answers process ms, ∃ r, m = .response r := by
  rw [answers_eq]; exact feed_responses ms _

/-- C109: a client that uses this library is connected to the server of the README, by a socket or by the standard
streams, and has sent messages with which the handshake goes wrong (and perhaps more), has dropped its sender and goes
on receiving.  When nothing can happen any more, the server has exited with an error, `join` of the client has returned,
and the client has received nothing but answers of the server to that, in order. -/
theorem C109_both {kc ks : Kind} {w : World} {as : List EndToEnd.Ev} (h : EndToEnd.Steps kc ks process {} as w)
    (hg : w.client.gone = false) (hr : w.client.io.rxAlive = true) (ht : w.client.io.txAlive = false)
    (hs : ∀ m ∈ w.client.io.accepted, Spec.Sayable m)
    (hb : Spec.Botched process (w.client.io.accepted.map Spec.heard))
    (hc : ∀ m ∈ Spec.answers process (w.client.io.accepted.map Spec.heard), Spec.Carried m)
    (hq : EndToEnd.Quiet kc ks process w) :
    w.server.exit = some false ∧ join kc w.client.io ≠ .waiting ∧
    w.client.io.delivered <+: (Spec.answers process (w.client.io.accepted.map Spec.heard)).map Message.norm := by
  obtain ⟨hl, bs, hss⟩ := world_link h
  have hpair := link_pair hl
  obtain ⟨p1, p2, p3, p4⟩ := pair_inv hpair
  have hd : w.server.io.delivered <+: w.client.io.accepted.map Spec.heard := C56_heard hpair hs
  have hacc : w.server.io.accepted <+: Spec.answers process (w.client.io.accepted.map Spec.heard) := by
    refine (mainInv hss).sent.trans ?_
    rw [← answers_eq]
    exact answers_prefix hd
  have okB : ∀ m ∈ w.server.io.accepted, Spec.Sayable m := by
    intro m hm
    obtain ⟨r, rfl⟩ := answers_responses _ m (hacc.subset hm)
    exact ⟨.inl trivial, hc _ (hacc.subset hm)⟩
  have nexB : Message.notification .exit ∉ w.server.io.accepted := by
    intro hm
    obtain ⟨r, h1⟩ := answers_responses _ _ (hacc.subset hm)
    cases h1
  have wrote : Session.Act.writeFails ∉ bs := session_wrote hss (right_writes hl hg hr okB nexB)
  have hexit : w.server.exit = some false := by
    rcases C71_nothing_pending hss wrote (quiet_server hq) with ⟨b, h1⟩ | ⟨h1, h2, _, _⟩
    · cases b with
      | false => exact h1
      | true => exact absurd h1 (botched_exit hss wrote hb hd)
    exfalso
    have hex : w.server.exit = none := by
      cases e : w.server.exit with
      | none => rfl
      | some b =>
        obtain ⟨_, r, h3, _⟩ := (mainInv hss).exits b e
        rw [h3] at h1; cases h1
    have no : ∀ {a q}, Session.Step ks process w.server a q → a = .thread ∨ a = .main → False := by
      intro a q hs ha
      have := hq _ _ (.server hs (by rcases ha with rfl | rfl <;> simp))
      rcases ha with rfl | rfl <;> cases this
    have hend : w.server.io.reader.ended = false := by
      cases e : w.server.io.reader.ended with
      | false => rfl
      | true => exact (no (.closed hex h1 e) (.inr rfl)).elim
    have hcl : (side w.server).closed ks = false := by simp [side, Side.closed, hex, hend]
    have wA : w.client.io.writer = .done := by
      have h3 := quiet_client_writer hq hg ht
      obtain ⟨_, h4, h5⟩ := (link_blame hl).1 hcl
      simp only [linkOf] at h4 h5
      cases e : w.client.io.writer with
      | failed => exact absurd e h4
      | panicked => exact absurd e h5
      | done => rfl
      | _ => simp [e, Writer.ended] at h3
    have hrx : w.server.io.rxAlive = true := by
      cases e : w.server.io.rxAlive with
      | true => rfl
      | false =>
        obtain ⟨r, h3⟩ := (mainInv hss).gone (.inl e)
        rw [h3] at h1; cases h1
    cases e : w.server.io.reader with
    | sending m => exact no (.recv hex h1 (.deliver _ m e hrx)) (.inr rfl)
    | reading =>
      obtain ⟨t, ht'⟩ := p3
      simp only [linkOf, side] at ht'
      have harr : w.server.io.arrived = w.client.io.out := by
        by_cases hne : t = []
        · rw [← ht', hne, List.append_nil]
        · have hs := Transport.Step.arrive (k := ks) w.server.io t h2
          have := hq _ _ (.server (.io hex hs rfl) (fun _ => ⟨_, rfl,
            .arrive (by simp [side, hex]) hne (by simp only [side]; rw [ht']; exact List.prefix_refl _) hs⟩))
          cases this
      have hall := C56_heard_all hpair hs (harr.trans (C54_drained p1 wA).2) e (by
        rintro ⟨s', hs'⟩
        exact no (.io hex hs' rfl) (.inl rfl))
      simp only [linkOf, side] at hall
      obtain ⟨r, h3, _⟩ := botched_end hb
      have hat := (mainInv hss).at' (no_fail hss wrote)
      rw [hall] at hat
      cases hat with
      | rest h4 _ => rw [h3] at h4; rw [h4] at h1; cases h1
      | sending h4 => rw [receives_toSend h1] at h4; cases h4
      | late h4 => rw [h3] at h4; cases h4
      | closed h4 => rw [h3] at h4; cases h4
    | _ => simp [e, Reader.ended] at hend
  refine ⟨hexit, C108_client h hexit hg ht hq, ?_⟩
  have h1 : w.client.io.delivered <+: w.server.io.accepted.map Spec.heard := C56_heard (pair_swap hpair) okB
  refine h1.trans ?_
  have h2 : w.server.io.accepted.map Spec.heard = w.server.io.accepted.map Message.norm :=
    List.map_congr_left (fun m hm => heard_wireOk (by
      obtain ⟨r, rfl⟩ := answers_responses _ m (hacc.subset hm)
      trivial))
  rw [h2]
  exact hacc.map _

/-- C109: in particular a request without params, or a custom one with null, before build/initialize: it arrives as a
response (C13), so the server does not refuse it but exits with an error. -/
theorem C109_bare {kc ks : Kind} {w : World} {as : List EndToEnd.Ev} (h : EndToEnd.Steps kc ks process {} as w)
    (hg : w.client.gone = false) (hr : w.client.io.rxAlive = true) (ht : w.client.io.txAlive = false)
    (hs : ∀ m ∈ w.client.io.accepted, Spec.Sayable m) {r : Request} {rest : List Message} (hb : Spec.Bare r)
    (ha : w.client.io.accepted = .request r :: rest) (hq : EndToEnd.Quiet kc ks process w) :
    w.server.exit = some false ∧ join kc w.client.io ≠ .waiting ∧ w.client.io.delivered = [] := by
  have he : Spec.heard (.request r) = .response ⟨r.id, none, none⟩ := heard_bare hb
  have h1 : Spec.Botched process (w.client.io.accepted.map Spec.heard) := by
    rw [ha, List.map_cons, he]
    exact .unexpected (early := []) (by simp) (by simp)
  have h2 : Spec.answers process (w.client.io.accepted.map Spec.heard) = [] := by
    rw [answers_eq, ha, List.map_cons, he]
    show [] ++ (feed process (.ended _) _).2 = []
    rw [feed_ended]; rfl
  obtain ⟨h3, h4, h5⟩ := C109_both h hg hr ht hs h1 (by rw [h2]; simp) hq
  exact ⟨h3, h4, List.prefix_nil.1 (by rwa [h2] at h5)⟩

/-- C109: and it comes to that: there is a run to that end (and no infinite one, `C96_terminates`). -/
theorem C109_ends {kc ks : Kind} {w : World} {as : List EndToEnd.Ev} (h : EndToEnd.Steps kc ks process {} as w)
    (hg : w.client.gone = false) (hr : w.client.io.rxAlive = true) (ht : w.client.io.txAlive = false)
    (hs : ∀ m ∈ w.client.io.accepted, Spec.Sayable m)
    (hb : Spec.Botched process (w.client.io.accepted.map Spec.heard))
    (hc : ∀ m ∈ Spec.answers process (w.client.io.accepted.map Spec.heard), Spec.Carried m) :
    ∃ bs u, EndToEnd.Steps kc ks process w bs u ∧ (∀ a ∈ bs, a.free = false) ∧
      u.server.exit = some false ∧ join kc u.client.io ≠ .waiting := by
  obtain ⟨bs, u, h1, h2, h3⟩ := world_settles kc ks process w
  obtain ⟨k1, k2, k3, k4⟩ := world_keeps h1 (fun e he => h3 _ he)
  obtain ⟨h4, h5, _⟩ := C109_both (world_append h h1) (k1.trans hg) (k3.trans hr) (k4.trans ht)
    (by rw [k2]; exact hs) (by rw [k2]; exact hb) (by rw [k2]; exact hc) h2
  exact ⟨bs, u, h1, h3, h4, h5⟩

end

/-! ### Concrete cases -/

section
attribute [local instance] Ext.sample FloatText.sample Dbg.sample

/-- Beside C108: the client has gone through a session and is killed, without exit. -/
example (kc ks : Kind) : ∃ as w, EndToEnd.Steps kc ks sampleHandler {} as w ∧ ∃ b, w.server.exit = some b := by
  obtain ⟨as, h⟩ := says_run kc ks sampleHandler sampleSaid
  have h0 := EndToEnd.Steps.snoc h (.client (.exit rfl))
  obtain ⟨bs, u, h1, _, h2⟩ := C108_server_ends h0 rfl
  exact ⟨_, u, world_append h0 h1, h2⟩

/-- Beside C108: the client is killed when it has written ten bytes of a frame. -/
example (kc ks : Kind) : ∃ as w, EndToEnd.Steps kc ks sampleHandler {} as w ∧ EndToEnd.Quiet kc ks sampleHandler w ∧
    ∃ b, w.server.exit = some b := by
  have hne : (Frame.write (.notification .exit)).take 10 ≠ [] := by decide +kernel
  have h0 : EndToEnd.Steps kc ks sampleHandler {} _ _ := .snoc (.snoc (.snoc (.nil _)
    (.client (.own rfl (.accept _ (.notification .exit) rfl rfl) (by simp) (by simp) (by simp))))
    (.client (.own rfl (.write _ ((Frame.write (.notification .exit)).take 10) ((Frame.write (.notification .exit)).drop 10)
      (by rw [List.take_append_drop]) hne) (by simp) (by simp) (by simp))))
    (.client (.exit rfl))
  obtain ⟨bs, u, h1, h2, h3⟩ := world_settles kc ks sampleHandler _
  obtain ⟨k1, _⟩ := world_keeps h1 (fun e he => h3 _ he)
  exact ⟨_, u, world_append h0 h1, h2, C108_server (world_append h0 h1) k1 h2⟩

/-- Beside C108: a process whose input breaks before anything has arrived. -/
example (k : Kind) : ∃ as p, Session.Steps k sampleHandler {} as p ∧ ∃ b, p.exit = some b := by
  have h0 : Session.Steps k sampleHandler {} _ _ := .snoc (.nil _) (.io rfl (.hangUp _ true rfl) rfl)
  obtain ⟨as, q, h1, h2, h3⟩ := C72_settles k sampleHandler _
  have h4 := (steps_arrived h1 (fun h => (h3 _ h).1 rfl)).2
  exact ⟨_, q, steps_append h0 h1, C108_exits (steps_append h0 h1) (by rw [h4]; simp) h2⟩

/-- Beside C108: after a session both sides have come to an end. -/
example (kc ks : Kind) : ∃ as w, EndToEnd.Steps kc ks sampleHandler {} as w ∧ join kc w.client.io ≠ .waiting := by
  obtain ⟨as, h⟩ := says_run kc ks sampleHandler (sampleSaid ++ [.notification .exit])
  have h0 := EndToEnd.Steps.snoc h (.client (.own rfl (.dropTx _) (by simp) (by simp) (by simp)))
  obtain ⟨bs, u, h1, h2, h3⟩ := world_settles kc ks sampleHandler _
  obtain ⟨k1, k2, k3, k4⟩ := world_keeps h1 (fun e he => h3 _ he)
  exact ⟨_, u, world_append h0 h1, C108_client (world_append h0 h1)
    (C96_served samplePlan (world_append h0 h1) k1 k2 k3 k4 h2).1 k1 k4 h2⟩

/-- Beside C108: the other side has dropped nothing and is killed. -/
example (ka kb : Kind) : ∃ n l', Link.Runs ka kb { a := { io := { txAlive := false } }, b := { gone := true } } n l' ∧
    join ka l'.a.io ≠ .waiting := by
  have hr : Link.Reachable ka kb { a := { io := { txAlive := false } }, b := { gone := true } } :=
    .step (.step .start (.left (.own rfl (.dropTx _) (by simp) (by simp) (by simp)))) (.right (.exit rfl))
  obtain ⟨n, l', h1, h2⟩ := (C92_rest hr).2
  obtain ⟨⟨a1, _, _, a4⟩, ⟨b1, _⟩, _⟩ := runs_keeps h1
  have := (C108_join_ends hr rfl rfl rfl).1
  exact ⟨n, l', h1, C108_join (runs_reachable h1 hr).1 b1 a1 a4 h2⟩

/-- A request that is refused, one without params, which is taken for a response, and exit. -/
def sampleBotched : List Message :=
  [.request (.buildTargetSources (.i32 0) ⟨[]⟩), .request (.workspaceReload (.i32 1)), .notification .exit]

theorem sampleBotched_sayable : ∀ m ∈ sampleBotched, Spec.Sayable m := by
  intro m hm
  simp only [sampleBotched, List.mem_cons, List.not_mem_nil, or_false] at hm
  rcases hm with rfl | rfl | rfl
  · exact ⟨.inl trivial, by decide, by repeat' constructor, by decide⟩
  · exact ⟨.inr ⟨_, rfl, _, .inr (.inr (.inl rfl))⟩, by decide, by repeat' constructor, by decide⟩
  · exact exit_sayable

theorem sampleBotched_botched : Spec.Botched sampleHandler (sampleBotched.map Spec.heard) :=
  .unexpected (early := [.buildTargetSources (.i32 0) ⟨[]⟩]) (by simp [Spec.Early]) (by
    intro r h; rw [heard_bare ⟨_, .inr (.inr (.inl rfl))⟩] at h; cases h)

set_option maxRecDepth 5000 in
/-- Beside C109: the refused request, and then the server is gone. -/
example (kc ks : Kind) : ∃ as w, EndToEnd.Steps kc ks sampleHandler {} as w ∧ w.server.exit = some false ∧
    join kc w.client.io ≠ .waiting := by
  obtain ⟨as, h⟩ := says_run kc ks sampleHandler sampleBotched
  have h0 := EndToEnd.Steps.snoc h (.client (.own rfl (.dropTx _) (by simp) (by simp) (by simp)))
  obtain ⟨bs, w, h1, _, h2, h3⟩ := C109_ends h0 rfl rfl rfl sampleBotched_sayable sampleBotched_botched (by
    have e : Spec.answers sampleHandler (sampleBotched.map Spec.heard) = [refusal (.buildTargetSources (.i32 0) ⟨[]⟩)] := by
      rw [answers_eq]; rfl
    intro m hm
    rw [e] at hm
    rw [List.mem_singleton.1 hm]
    exact ⟨by decide, by repeat' constructor, by decide⟩)
  exact ⟨_, w, world_append h0 h1, h2, h3⟩

set_option maxRecDepth 5000 in
/-- Beside C109: the client receives at most the refusal. -/
example (kc ks : Kind) : ∃ as w, EndToEnd.Steps kc ks sampleHandler {} as w ∧ EndToEnd.Quiet kc ks sampleHandler w ∧
    w.server.exit = some false ∧ w.client.io.delivered <+: [(refusal (.buildTargetSources (.i32 0) ⟨[]⟩)).norm] := by
  obtain ⟨as, h⟩ := says_run kc ks sampleHandler sampleBotched
  have h0 := EndToEnd.Steps.snoc h (.client (.own rfl (.dropTx _) (by simp) (by simp) (by simp)))
  obtain ⟨bs, u, h1, h2, h3⟩ := world_settles kc ks sampleHandler _
  have hh := world_append h0 h1
  obtain ⟨k1, k2, k3, k4⟩ := world_keeps h1 (fun e he => h3 _ he)
  have k2 : u.client.io.accepted = sampleBotched := k2
  have e : Spec.answers sampleHandler (sampleBotched.map Spec.heard) = [refusal (.buildTargetSources (.i32 0) ⟨[]⟩)] := by
    rw [answers_eq]; rfl
  obtain ⟨h4, _, h5⟩ := C109_both hh k1 k3 k4 (by rw [k2]; exact sampleBotched_sayable)
    (by rw [k2]; exact sampleBotched_botched) (by
      intro m hm
      rw [k2, e] at hm
      rw [List.mem_singleton.1 hm]
      exact ⟨by decide, by repeat' constructor, by decide⟩) h2
  rw [k2, e] at h5
  exact ⟨_, u, hh, h2, h4, h5⟩

/-- Beside C109: reload before build/initialize. -/
example (kc ks : Kind) : ∃ as w, EndToEnd.Steps kc ks sampleHandler {} as w ∧ w.server.exit = some false ∧
    w.client.io.delivered = [] := by
  obtain ⟨as, h⟩ := says_run kc ks sampleHandler [.request (.workspaceReload (.i32 1))]
  have h0 := EndToEnd.Steps.snoc h (.client (.own rfl (.dropTx _) (by simp) (by simp) (by simp)))
  obtain ⟨bs, u, h1, h2, h3⟩ := world_settles kc ks sampleHandler _
  obtain ⟨k1, k2, k3, k4⟩ := world_keeps h1 (fun e he => h3 _ he)
  obtain ⟨h4, _, h5⟩ := C109_bare (r := .workspaceReload (.i32 1)) (rest := []) (world_append h0 h1) k1 k3 k4 (by
    rw [k2]
    intro m hm
    rw [List.mem_singleton.1 hm]
    exact sampleBotched_sayable _ (by simp [sampleBotched])) ⟨_, .inr (.inr (.inl rfl))⟩ k2 h2
  exact ⟨_, u, world_append h0 h1, h4, h5⟩

/-- Beside C109: exit instead of build/initialize. -/
example (k : Kind) : ∃ as p, Session.Steps k sampleHandler {} as p ∧ p.exit = some false := by
  obtain ⟨as, p, h1, h2, _, h4, h5, _⟩ := settle k sampleHandler (Frame.write (.notification .exit))
  exact ⟨as, p, h1, C109_process h1 h2 h4 (ms := [.notification .exit]) (rest := [])
    (.unexpected (early := []) (by simp) (by simp)) (by rw [h5, List.append_nil]) (by
      simpa using carries_lib .nil exit_carried (m' := .notification .exit) rfl)⟩

end
end Bsp
