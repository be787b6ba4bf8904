/-
C144: the server of the README is reached through a chain of relays as if it were connected directly.
-/
import Verif.Remote
import Verif.Props.Chain
import Verif.Props.EndToEnd

set_option linter.unusedSectionVars false

namespace Bsp
open Frame Transport Link
open Bridge (Who)
open Conn (Dbg)
open Session (Proc kindOf)
open EndToEnd (side)

section
variable [LawfulExt] [Dbg] [FloatText] {process : InitializeBuild → Option Value}
  {kc : Kind} {kl : Nat → Kind} {n : Nat}
  {said : List Message} {early : List Request} {id : RequestId} {ip : InitializeBuild} {v : Value} {pre : List Message}

/-! ### The chain and the last connection -/

theorem set_same (w : Chain.World) (i : Nat) : w.set i (w.link i) = w := by
  obtain ⟨l, u, d⟩ := w
  simp only [Chain.World.set, Chain.World.mk.injEq, and_true]
  funext j
  by_cases e : j = i <;> simp [e]

/-- The last connection: the server, and what is before it as if it were a client that goes on receiving.
Proof helper for bsp-server/src/transporter.rs:47-80. -/
def lastOf (n : Nat) (w : Remote.World) : EndToEnd.World := ⟨keptSide (w.chain.link n).a, w.server⟩

/-- A step of all is one of the chain, or none, and the server is at its end. -/
theorem remote_step {w w' : Remote.World} {a : Remote.Ev} (hs : Remote.Step kc kl n process w a w')
    (he : (w.chain.link n).b = side w.server) :
    (w'.chain = w.chain ∨ ∃ x, Chain.Next kc kl n w.chain x w'.chain) ∧ (w'.chain.link n).b = side w'.server := by
  cases hs with
  | client hm =>
    refine ⟨.inr ⟨_, hm⟩, ?_⟩
    cases hm with
    | client hm =>
      simp only
      by_cases e : n = 0
      · subst e; rw [set_self]; exact he
      · rw [set_other _ _ e]; exact he
  | relay hm =>
    refine ⟨.inr ⟨_, hm⟩, ?_⟩
    cases hm with
    | @relay j b hj hm =>
      simp only
      by_cases e : n = j + 1
      · subst e; rw [put_next, (relay_sides hm).1.2]; exact he
      · rw [put_other _ _ (by omega) e]; exact he
  | @server a p hst hpe =>
    obtain ⟨_, hm⟩ := server_move hst hpe
    refine ⟨?_, by simp only [set_self]⟩
    rcases hm with hm | ⟨ev, hm⟩
    · left
      have : ({ w.chain.link n with b := side p } : Link) = w.chain.link n := by rw [hm, ← he]
      simp only [this, set_same]
    · right
      rw [← he] at hm
      exact ⟨_, .server hm⟩

theorem remote_chain {w : Remote.World} {as : List Remote.Ev} (h : Remote.Steps kc kl n process {} as w) :
    Chain.Reachable kc kl n w.chain ∧ (w.chain.link n).b = side w.server := by
  have key : ∀ {w0 w : Remote.World} {as}, Remote.Steps kc kl n process w0 as w → w0 = {} →
      Chain.Reachable kc kl n w.chain ∧ (w.chain.link n).b = side w.server := by
    intro w0 w as h
    induction h with
    | nil => rintro rfl; exact ⟨.start, rfl⟩
    | snoc _ hs ih =>
      intro e
      obtain ⟨h1, h2⟩ := ih e
      obtain ⟨h3, h4⟩ := remote_step hs h2
      refine ⟨?_, h4⟩
      rcases h3 with h3 | ⟨x, h3⟩
      · rw [h3]; exact h1
      · exact .step h1 h3
  exact key h rfl

/-- The client is there and goes on receiving, and has sent an initial part of that. -/
structure Spec.Speaks (said : List Message) (w : Remote.World) : Prop where
  gone : (w.chain.link 0).a.gone = false
  rx : (w.chain.link 0).a.io.rxAlive = true
  said : (w.chain.link 0).a.io.accepted <+: said

theorem speaks_before {all : List Message} {w w' : Remote.World} {a : Remote.Ev}
    (hs : Remote.Step kc kl n process w a w') (he : (w.chain.link n).b = side w.server) (h : Spec.Speaks all w') :
    Spec.Speaks all w := by
  have g : Grows (w.chain.link 0).a (w'.chain.link 0).a := by
    rcases (remote_step hs he).1 with e | ⟨x, hx⟩
    · rw [e]; exact grows_refl _
    · rcases (chain_ends hx).1 with e | ⟨_, hm⟩
      · rw [e]; exact grows_refl _
      · exact move_grows hm
  refine ⟨?_, g.rx h.rx, g.accepted.trans h.said⟩
  cases e : (w.chain.link 0).a.gone with
  | false => rfl
  | true =>
    have := g.gone e
    rw [h.gone] at this; cases this

/-- What the server hears at the end of the chain is planned as well. -/
theorem hop_plan (hp : Spec.Plan process said early id ip v pre) (n : Nat) :
    Spec.Plan process (hop n said) early id ip v pre := by
  refine ⟨hop_say hp.sayable n, fun h => hp.noExit (hop_exit h), ?_, hp.refused, hp.accepts, hp.carried⟩
  have : (hop n said).map Spec.heard = said.map Spec.heard := hop_heard hp.sayable n
  rw [this, hp.heard]

theorem speaks_last (hp : Spec.Plan process said early id ip v pre) {w : Remote.World}
    (h : Chain.Reachable kc kl n w.chain) (hs : Spec.Speaks (said ++ [.notification .exit]) w) :
    (∀ m ∈ (w.chain.link 0).a.io.accepted, Spec.Sayable m) ∧
    Spec.Says (hop n said ++ [.notification .exit]) (lastOf n w) := by
  have ok : ∀ m ∈ (w.chain.link 0).a.io.accepted, Spec.Sayable m := by
    intro m hm
    rcases List.mem_append.1 (hs.said.subset hm) with h1 | h1
    · exact hp.sayable m h1
    · rw [List.mem_singleton.1 h1]; exact exit_sayable
  refine ⟨ok, rfl, rfl, ?_⟩
  have := (chain_sent h ok n (Nat.le_refl _)).1.trans (hop_prefix hs.said n)
  rw [hop_end] at this
  exact this

/-- What the chain is to the two programs, when the last connection is as in C96. -/
theorem last_passing (hp : Spec.Plan process said early id ip v pre) {w : Remote.World} {as : List EndToEnd.Ev}
    (h : Chain.Reachable kc kl n w.chain) (he : (w.chain.link n).b = side w.server)
    (hl : EndToEnd.Steps (Chain.near kc n) (kl n) process {} as (lastOf n w))
    (hs : Spec.Speaks (said ++ [.notification .exit]) w) : Spec.Passing said (w.chain.ends n) := by
  obtain ⟨ok, hy⟩ := speaks_last hp h hs
  obtain ⟨bs, hg⟩ := going (hop_plan hp n) hl hy
  have l := hg.leaving
  refine ⟨⟨hs.gone, ?_⟩, ok, ?_, hp.noExit, hs.said, ?_, hs.rx, ?_⟩
  · change (w.chain.link n).b.gone = true → _; simp only [Chain.World.ends, he]; exact l.gone.2
  · simp only [Chain.World.ends, he]; exact l.okB
  · simp only [Chain.World.ends, he]; exact l.sentB
  · simp only [Chain.World.ends, he]; exact l.rxB

/-- What is before the server is as closed as if it went on receiving. -/
theorem last_closed {w : Chain.World} (h : Chain.Reachable kc kl n w) (hp : Spec.Passing said (w.ends n)) :
    (keptSide (w.link n).a).closed (Chain.near kc n) = (w.link n).a.closed (Chain.near kc n) := by
  cases n with
  | zero => rw [kept_same (x := (w.link 0).a) hp.gone.1 hp.rxA]
  | succ i =>
    have hk := chain_kept h hp
    exact kept_closed (hk i (by omega)) (chain_passing h hp hk 0 i (by omega))

/-- The last connection behaves as in C96, whatever the relays do. -/
theorem remote_last (hp : Spec.Plan process said early id ip v pre) {w : Remote.World} {as : List Remote.Ev}
    (h : Remote.Steps kc kl n process {} as w) (hs : Spec.Speaks (said ++ [.notification .exit]) w) :
    ∃ bs, EndToEnd.Steps (Chain.near kc n) (kl n) process {} bs (lastOf n w) := by
  have key : ∀ {w0 w : Remote.World} {as}, Remote.Steps kc kl n process w0 as w → w0 = {} →
      Spec.Speaks (said ++ [.notification .exit]) w →
      ∃ bs, EndToEnd.Steps (Chain.near kc n) (kl n) process {} bs (lastOf n w) := by
    intro w0 w as h
    induction h with
    | nil => rintro rfl _; exact ⟨[], .nil _⟩
    | @snoc as w a w' hst hs ih =>
      rintro rfl ht
      obtain ⟨hr, he⟩ := remote_chain hst
      have ht0 := speaks_before hs he ht
      obtain ⟨bs, hb⟩ := ih rfl ht0
      have hpass := last_passing hp hr he hb ht0
      cases hs with
      | @client ev _ hm =>
        cases hm with
        | @client _ c hm =>
          by_cases e : n = 0
          · subst e
            have e1 : keptSide (w.chain.link 0).a = (w.chain.link 0).a := kept_same ht0.gone ht0.rx
            have e2 : lastOf 0 { w with chain := w.chain.set 0 { w.chain.link 0 with a := c } } =
                { lastOf 0 w with client := c } := by
              have : keptSide c = c := by
                have g1 := ht.gone
                have g2 := ht.rx
                simp only [set_self] at g1 g2
                exact kept_same g1 g2
              simp only [lastOf, set_self, this]
            rw [e2]
            refine ⟨_, .snoc hb (.client (ev := ev) ?_)⟩
            change Move kc (kl 0) (keptSide (w.chain.link 0).a) (side w.server) ev c
            rw [e1, ← he]
            exact hm
          · refine ⟨bs, ?_⟩
            have : lastOf n { w with chain := w.chain.set 0 { w.chain.link 0 with a := c } } = lastOf n w := by
              simp only [lastOf, set_other _ _ e]
            rw [this]; exact hb
      | relay hm =>
        cases hm with
        | @relay j b hj hm =>
          by_cases e : n = j + 1
          · subst e
            have hk := chain_kept hr hpass j (by omega)
            have pi := passInv hk (chain_passing hr hpass (chain_kept hr hpass) 0 j (by omega))
            have bi := bridgeInv hk
            have e3 : lastOf (j + 1) { w with chain := w.chain.put j b } =
                { lastOf (j + 1) w with client := keptSide b.right.a } := by simp only [lastOf, put_next]
            rw [e3]
            rcases relay_right hm (fun t => pi.downEnd (bi.down.2 (.inl t))) with h3 | ⟨ev, h3⟩
            · rw [h3]; exact ⟨bs, hb⟩
            · refine ⟨_, .snoc hb (.client (ev := ev) ?_)⟩
              change Move .socket (kl (j + 1)) (keptSide (w.chain.link (j + 1)).a) (side w.server) ev _
              rw [← he]
              exact h3
          · refine ⟨bs, ?_⟩
            have : lastOf n { w with chain := w.chain.put j b } = lastOf n w := by
              simp only [lastOf, put_other _ _ (show n ≠ j by omega) e]
            rw [this]; exact hb
      | @server a p hst' hpe =>
        have e3 : lastOf n ⟨w.chain.set n { w.chain.link n with b := side p }, p⟩ = { lastOf n w with server := p } := by
          simp only [lastOf, set_self]
        rw [e3]
        refine ⟨_, .snoc hb (.server hst' fun ha => ?_)⟩
        obtain ⟨act, h1, h2⟩ := hpe ha
        exact ⟨act, h1, move_other h2 rfl rfl rfl (last_closed hr hpass)⟩
  exact key h rfl hs

/-- C144: at any moment, through any number of relays and whatever they do, as long as the client keeps to the plan and
goes on receiving: the server has not failed, and the client has received a beginning of the answers due, in order. -/
theorem C144_prefix (hp : Spec.Plan process said early id ip v pre) {w : Remote.World} {as : List Remote.Ev}
    (h : Remote.Steps kc kl n process {} as w) (hg : (w.chain.link 0).a.gone = false)
    (hx : (w.chain.link 0).a.io.accepted <+: said ++ [.notification .exit]) (hr : (w.chain.link 0).a.io.rxAlive = true) :
    w.server.exit ≠ some false ∧
    ∃ ms, Spec.Served early id v (Spec.requests pre) ms ∧ (w.chain.link 0).a.io.delivered <+: ms.map Message.norm := by
  have hs : Spec.Speaks (said ++ [.notification .exit]) w := ⟨hg, hr, hx⟩
  obtain ⟨hc, he⟩ := remote_chain h
  obtain ⟨bs, hl⟩ := remote_last hp h hs
  have hpass := last_passing hp hc he hl hs
  obtain ⟨_, hgo⟩ := going (hop_plan hp n) hl (speaks_last hp hc hs).2
  refine ⟨hgo.ok, Spec.answers process (Spec.session early id ip pre), ?_, ?_⟩
  · rw [answers_eq, feed_session hp.refused hp.accepts (plan_pre hp).1]
    exact ⟨early.map refusal, (Spec.requests pre).map Conn.reply, rfl, refusals _, replies _⟩
  have h1 := (C142_order hc).2 hpass.okB
  have hacc : w.server.io.accepted <+: Spec.answers process (Spec.session early id ip pre) :=
    (mainInv hgo.sess).sent.trans (plan_stays (hop_plan hp n) (going_heard hgo)).2.2
  rw [he] at h1
  have h2 := h1.trans (hacc.map Spec.heard)
  refine h2.trans ?_
  rw [List.map_congr_left (fun m hm => ?_)]
  · exact List.prefix_refl _
  · obtain ⟨r, rfl⟩ := plan_response hp m hm
    exact heard_wireOk trivial

/-! ### At rest -/

/-- When nothing can happen any more, nothing can in the chain either: the server does not refuse to receive. -/
theorem remote_quiet {w : Remote.World} {bs : List Session.Act} (hq : Remote.Quiet kc kl n process w)
    (he : (w.chain.link n).b = side w.server) (hb : Session.Steps (kl n) process {} bs w.server) :
    Chain.Quiet kc kl n w.chain := by
  have no : ∀ {a p}, Session.Step (kl n) process w.server a p → a = .thread ∨ a = .main ∨ a = .drop → False := by
    intro a p hs ha
    have := hq _ _ (.server hs (by rcases ha with rfl | rfl | rfl <;> simp))
    rcases ha with rfl | rfl | rfl <;> cases this
  intro x c hs
  cases hs with
  | client hm => exact hq _ _ (.client (.client hm))
  | relay hj hm => cases hq _ _ (.relay (.relay hj hm))
  | @server ev b hm =>
    rw [he] at hm
    cases ha : ev.app with
    | true => exact ha
    | false =>
      exfalso
      have hx : w.server.exit = none := by
        have := move_awake hm
        simpa [side] using this
      have peer : ∀ {act io'}, Transport.Step (kl n) w.server.io act io' → kindOf act = some .peer ∨ kindOf act = some .writeFails →
          Move (kl n) (Chain.near kc n) (side w.server) (w.chain.link n).a (.act act) ⟨io', w.server.exit.isSome⟩ → False := by
        intro act io' h1 h2 h3
        rcases h2 with h2 | h2
        · have := hq _ _ (.server (.io hx h1 h2) (fun _ => ⟨act, h2, h3⟩))
          cases this
        · have := hq _ _ (.server (.io hx h1 h2) (fun _ => ⟨act, h2, h3⟩))
          cases this
      have hm0 := hm
      cases hm with
      | @own act io' h0 h1 h2 h3 h4 =>
        cases h1 with
        | arrive bs _ => exact h2 bs rfl
        | hangUp b _ => exact h3 b rfl
        | writeFails b _ => exact h4 rfl
        | accept => cases ha
        | dropRx => cases ha
        | dropTx => cases ha
        | read r i1 i2 => exact no (.io hx (.read _ r i1 i2) rfl) (.inl rfl)
        | undeliverable m i1 i2 => exact no (.io hx (.undeliverable _ m i1 i2) rfl) (.inl rfl)
        | write a b i1 i2 => exact no (.io hx (.write _ a b i1 i2) rfl) (.inl rfl)
        | written i1 => exact no (.io hx (.written _ i1) rfl) (.inl rfl)
        | close i1 i2 => exact no (.io hx (.close _ i1 i2) rfl) (.inl rfl)
        | deliver m i1 i2 =>
          have rc : w.server.app.receives = true → False := fun e => no (.recv hx e (.deliver _ m i1 i2)) (.inr (.inl rfl))
          have sd : ∀ x, Session.toSend w.server.app = some x → (∀ r, w.server.app ≠ .ended r) → False := by
            intro x e hne
            have htx : w.server.io.txAlive = true := by
              cases e : w.server.io.txAlive with
              | true => rfl
              | false =>
                obtain ⟨r, h⟩ := (mainInv hb).gone (.inr e)
                exact absurd h (hne r)
            cases ew : w.server.io.writer with
            | idle => exact no (.send hx e (.accept _ x ew htx)) (.inr (.inl rfl))
            | writing r =>
              obtain ⟨a, s', h4, h5⟩ := writer_moves (k := kl n) ew
              exact no (.io hx h4 h5) (.inl rfl)
            | _ => exact no (.unsent hx e (by rw [ew]; rfl)) (.inr (.inl rfl))
          cases ea : w.server.app with
          | ended r => exact no (.dropRx hx ea i2) (.inr (.inr rfl))
          | start => exact rc (by rw [ea]; rfl)
          | confirming => exact rc (by rw [ea]; rfl)
          | idle => exact rc (by rw [ea]; rfl)
          | leaving => exact rc (by rw [ea]; rfl)
          | refusing r => exact sd _ (by rw [ea]; rfl) (by rw [ea]; simp)
          | replying i r => exact sd _ (by rw [ea]; rfl) (by rw [ea]; simp)
          | answering r => exact sd _ (by rw [ea]; rfl) (by rw [ea]; simp)
          | stopping i => exact sd _ (by rw [ea]; rfl) (by rw [ea]; simp)
      | arrive h0 h1 h2 h3 => exact peer h3 (.inl rfl) hm0
      | fin h0 h1 h2 h3 => exact peer h3 (.inl rfl) hm0
      | reset h0 h1 h2 h3 h4 => exact peer h4 (.inl rfl) hm0
      | fails h0 h1 h2 h3 h4 => exact peer h4 (.inr rfl) hm0
      | exit h0 => cases ha

/-- Then nothing can happen on the last connection, either. -/
theorem last_quiet {w : Remote.World} (hc : Chain.Reachable kc kl n w.chain) (he : (w.chain.link n).b = side w.server)
    (hpass : Spec.Passing said (w.chain.ends n)) (hq : Remote.Quiet kc kl n process w) (hcq : Chain.Quiet kc kl n w.chain) :
    EndToEnd.Quiet (Chain.near kc n) (kl n) process (lastOf n w) := by
  have lq := chain_quiet hc hpass hcq (Nat.le_refl n)
  intro a u hst
  cases hst with
  | @client ev c hm =>
    have hm : Move (Chain.near kc n) (kl n) (keptLink (w.chain.link n)).a (w.chain.link n).b ev c := by rw [he]; exact hm
    exact lq _ _ (.left (l := keptLink (w.chain.link n)) hm)
  | @server a p hst hpe =>
    have := hq _ _ (.server hst fun ha => by
      obtain ⟨act, h1, h2⟩ := hpe ha
      exact ⟨act, h1, move_other h2 rfl rfl rfl (last_closed hc hpass).symm⟩)
    cases a <;> first | rfl | cases this

/-- C144: before exit, too: when the client has sent the rest of it and goes on receiving, and nothing can happen any more,
the server is there and waits, and the client has received, through all the relays, exactly one answer to each request that
the server has received, in order, and nothing else. -/
theorem C144_rest (hp : Spec.Plan process said early id ip v pre) {w : Remote.World} {as : List Remote.Ev}
    (h : Remote.Steps kc kl n process {} as w) (hg : (w.chain.link 0).a.gone = false)
    (hx : (w.chain.link 0).a.io.accepted = said) (hr : (w.chain.link 0).a.io.rxAlive = true)
    (hq : Remote.Quiet kc kl n process w) :
    w.server.exit = none ∧ w.server.io.delivered = said.map Spec.heard ∧
    ∃ ms, Spec.Served early id v (Spec.requests pre) ms ∧ (w.chain.link 0).a.io.delivered = ms.map Message.norm := by
  have hs : Spec.Speaks (said ++ [.notification .exit]) w := ⟨hg, hr, by rw [hx]; exact List.prefix_append _ _⟩
  obtain ⟨hc, he⟩ := remote_chain h
  obtain ⟨bs, hl⟩ := remote_last hp h hs
  have hpass := last_passing hp hc he hl hs
  have hp' := hop_plan hp n
  obtain ⟨_, hgo⟩ := going hp' hl (speaks_last hp hc hs).2
  have hcq := remote_quiet hq he hgo.sess
  have hne : Message.notification .exit ∉ (w.chain.link 0).a.io.accepted := by rw [hx]; exact hp.noExit
  obtain ⟨one, _, up⟩ := chain_drained hc hpass hne hcq
  obtain ⟨r1, r2, _⟩ := C142_rest hc hpass hne hcq
  have u1 := up n (Nat.le_refl _)
  rw [hx] at u1
  obtain ⟨e1, _⟩ := C97_waits hp' hl rfl rfl (by rw [← u1]; exact List.prefix_refl _)
  obtain ⟨ms, hms, hd⟩ := C97_rest hp' hl rfl rfl u1 (last_quiet hc he hpass hq hcq)
  refine ⟨e1, ?_, ms, hms, ?_⟩
  · rw [he, hx] at r2; exact r2
  · rw [r1, ← (one n (Nat.le_refl _)).2]; exact hd

/-- C144: a client that uses this library has the server of the README at the other end of `n` relays, with any kinds of
connections.  It has sent any requests that are refused before build/initialize, then build/initialize, initialized, any
other messages, and exit, has dropped its sender and goes on receiving.  When nothing can happen any more, the server has
exited with success, all relays have exited, every `join` returns Ok, and the client has received exactly one answer to each
request that the server has received, in order, and nothing else: what it gets from a server connected directly (C96). -/
theorem C144_served (hp : Spec.Plan process said early id ip v pre) {w : Remote.World} {as : List Remote.Ev}
    (h : Remote.Steps kc kl n process {} as w) (hg : (w.chain.link 0).a.gone = false)
    (hx : (w.chain.link 0).a.io.accepted = said ++ [.notification .exit]) (hr : (w.chain.link 0).a.io.rxAlive = true)
    (ht : (w.chain.link 0).a.io.txAlive = false) (hq : Remote.Quiet kc kl n process w) :
    w.server.exit = some true ∧
    (∀ i ≤ n, join (Chain.near kc i) (w.chain.link i).a.io = .ok ∧ join (kl i) (w.chain.link i).b.io = .ok) ∧
    (∀ i < n, (w.chain.link i).b.gone = true ∧ (w.chain.link (i + 1)).a.gone = true) ∧
    ∃ ms, Spec.Served early id v (Spec.requests pre) ms ∧ (w.chain.link 0).a.io.delivered = ms.map Message.norm := by
  have hs : Spec.Speaks (said ++ [.notification .exit]) w := ⟨hg, hr, by rw [hx]; exact List.prefix_refl _⟩
  obtain ⟨hc, he⟩ := remote_chain h
  obtain ⟨bs, hl⟩ := remote_last hp h hs
  have hpass := last_passing hp hc he hl hs
  have hp' := hop_plan hp n
  obtain ⟨_, hgo⟩ := going hp' hl (speaks_last hp hc hs).2
  have hcq := remote_quiet hq he hgo.sess
  obtain ⟨u1, u2⟩ := chain_up hc hpass hx ht hcq n (Nat.le_refl _)
  rw [hx, hop_end] at u1
  have lq := chain_quiet hc hpass hcq (Nat.le_refl n)
  have hlq := last_quiet hc he hpass hq hcq
  obtain ⟨hexit, _, ms, hms, hd⟩ := C96_served hp' hl rfl u1 rfl u2 hlq
  change w.server.exit = some true at hexit
  change (w.chain.link n).a.io.delivered = _ at hd
  have hbt : (w.chain.link n).b.io.txAlive = false := by
    rw [he]; exact ((mainInv hgo.sess).exits true hexit).1
  have hbg : (w.chain.link n).b.gone = true := by rw [he]; simp [side, hexit]
  obtain ⟨j1, _, j3, j4⟩ := C142_joined hc hpass hx ⟨ht, hbt⟩ (.inr hbg) hcq
  obtain ⟨hll, lv⟩ := chain_leaving hc hpass (Nat.le_refl n)
  have := (C92_joined hll lv u1 ⟨u2, hbt⟩ (.inr hbg) lq).1.2
  change (w.chain.link n).a.io.delivered = (w.chain.link n).b.io.accepted.map Spec.heard at this
  exact ⟨hexit, j3, j4, ms, hms, by rw [j1, ← this, hd]⟩

/-! ### Coming to rest -/

/-- What the server does leaves no more to be done on the way to it, and less if it was brought to it. -/
theorem server_way {x y x' : Side} {k k' : Kind} {ev : Ev} (h : Move k k' x y ev x') (h1 : x.io.arrived <+: y.io.out)
    (h2 : y.io.arrived <+: x.io.out) :
    wayLeft y x' ≤ wayLeft y x ∧ (∀ act, ev = .act act → kindOf act = some .peer → wayLeft y x' < wayLeft y x) := by
  cases ha : ev.app with
  | false =>
    rcases move_way h ha h1 h2 with ⟨a, b⟩ | ⟨_, b⟩
    · refine ⟨by omega, ?_⟩
      rintro act rfl hk
      exfalso
      cases h with
      | own _ _ i1 i2 _ =>
        cases act <;> simp [kindOf] at hk
        · exact i1 _ rfl
        · exact i2 _ rfl
      | arrive _ _ _ i => cases i; exact Nat.lt_irrefl _ a
      | fin _ _ _ i => cases i; exact Nat.lt_irrefl _ a
      | reset _ _ _ _ i => cases i; exact Nat.lt_irrefl _ a
      | fails => simp [kindOf] at hk
    · exact ⟨by omega, fun _ _ _ => b⟩
  | true =>
    cases h with
    | own _ hs _ _ _ =>
      cases hs with
      | accept => exact ⟨Nat.le_refl _, by rintro _ ⟨⟩ hk; simp [kindOf] at hk⟩
      | dropRx => exact ⟨Nat.le_refl _, by rintro _ ⟨⟩ hk; simp [kindOf] at hk⟩
      | dropTx => exact ⟨Nat.le_refl _, by rintro _ ⟨⟩ hk; simp [kindOf] at hk⟩
      | _ => cases ha
    | exit _ => exact ⟨Nat.le_refl _, by rintro _ ⟨⟩⟩
    | _ => cases ha

/-- What is left to do on the way to the server, link by link. Proof helper for bsp-server/src/transporter.rs:14-80. -/
def upLeft (n : Nat) (w : Chain.World) (i : Nat) : Nat := if i ≤ n then upWork w i else 0

/-- What is left to do on the way back, link by link. Proof helper for bsp-server/src/transporter.rs:14-80. -/
def downLeft (n : Nat) (w : Chain.World) (i : Nat) : Nat := if i ≤ n then downWork w (n - i) else 0

/-- Less to do: towards the server, in the server, on the way back.
Proof helper for bsp-server/src/transporter.rs:14-80, README.md:14-63. -/
def Nearer (n : Nat) : (Nat → Nat) × ((Nat × Nat) × (Nat → Nat)) → (Nat → Nat) × ((Nat × Nat) × (Nat → Nat)) → Prop :=
  Prod.Lex (Sooner n) (Prod.Lex (Prod.Lex (· < ·) (· < ·)) (Sooner n))

theorem nearer_wf (n : Nat) : WellFounded (Nearer n) :=
  (Prod.lex ⟨_, sooner_wf n⟩ ⟨_, (Prod.lex ⟨_, (Prod.lex ⟨_, Nat.lt_wfRel.wf⟩ ⟨_, Nat.lt_wfRel.wf⟩).wf⟩ ⟨_, sooner_wf n⟩).wf⟩).wf

/-- What is left to do. Proof helper for bsp-server/src/transporter.rs:14-80, README.md:14-63. -/
def remoteWork (n : Nat) (w : Remote.World) : (Nat → Nat) × ((Nat × Nat) × (Nat → Nat)) :=
  (upLeft n w.chain, work w.server, downLeft n w.chain)

theorem ahead_nearer {w w' : Chain.World} {p : Proc} (h : Ahead n w w') :
    Nearer n (upLeft n w', work p, downLeft n w') (upLeft n w, work p, downLeft n w) := by
  rcases h with ⟨i, h1, h2, h3, h4⟩ | ⟨i, h1, h2, h3, h4⟩
  · refine .left _ _ ⟨i, h1, ?_, fun j hj => ?_⟩
    · simp only [upLeft, h1, if_true]; exact h2
    · simp only [upLeft, show j ≤ n by omega, if_true]; exact h3 j hj
  · have e : upLeft n w' = upLeft n w := by
      funext j
      simp only [upLeft]
      by_cases hj : j ≤ n
      · simp only [hj, if_true]; exact h4 j hj
      · simp only [hj, if_false]
    refine Prod.lex_def.2 (.inr ⟨e, Prod.lex_def.2 (.inr ⟨rfl, n - i, by omega, ?_, fun j hj => ?_⟩)⟩)
    · simp only [downLeft, show n - i ≤ n by omega, if_true, show n - (n - i) = i by omega]; exact h2
    · simp only [downLeft, show j ≤ n by omega, if_true]; exact h3 _ (by omega) (by omega)

theorem remote_work {w w' : Remote.World} {a : Remote.Ev} (hr : Chain.Reachable kc kl n w.chain)
    (he : (w.chain.link n).b = side w.server) (hs : Remote.Step kc kl n process w a w')
    (ha : ∀ e, a = .client e → e.app = false) : Nearer n (remoteWork n w') (remoteWork n w) := by
  cases hs with
  | client hm => exact ahead_nearer (chain_way hr hm (ha _ rfl))
  | relay hm => exact ahead_nearer (chain_way hr hm rfl)
  | @server a p hst hpe =>
    obtain ⟨_, _, r1, r2⟩ := pair_inv (link_pair (chain_link hr n (Nat.le_refl _)))
    rw [he] at r1 r2
    have u : ∀ j < n, upWork (w.chain.set n { w.chain.link n with b := side p }) j = upWork w.chain j := by
      intro j hj
      cases j with
      | zero => simp only [upWork, upExtra, set_other _ _ (show 0 ≠ n by omega)]
      | succ j =>
        simp only [upWork, upExtra, set_other _ _ (show j + 1 ≠ n by omega), set_other _ _ (show j ≠ n by omega)]
        rfl
    have u0 : upWork (w.chain.set n { w.chain.link n with b := side p }) n =
        wayLeft (w.chain.link n).a (side p) + upExtra w.chain n := by
      simp only [upWork, set_self]
      cases n with
      | zero => rfl
      | succ n => simp only [upExtra, set_self, set_other _ _ (show n ≠ n + 1 by omega)]; rfl
    have v0 : upWork w.chain n = wayLeft (w.chain.link n).a (side w.server) + upExtra w.chain n := by
      simp only [upWork, he]
    have less : wayLeft (w.chain.link n).a (side p) < wayLeft (w.chain.link n).a (side w.server) →
        Nearer n (remoteWork n ⟨w.chain.set n { w.chain.link n with b := side p }, p⟩) (remoteWork n w) := by
      intro hl
      refine .left _ _ ⟨n, Nat.le_refl _, ?_, fun j hj => ?_⟩
      · simp only [upLeft, Nat.le_refl, if_true, u0, v0]; omega
      · simp only [upLeft, show j ≤ n by omega, if_true]; exact u j hj
    by_cases hp : a = .peer
    · subst hp
      obtain ⟨act, h1, h2⟩ := hpe (.inl rfl)
      exact less ((server_way h2 r1 r2).2 act rfl h1)
    · have hle : wayLeft (w.chain.link n).a (side p) ≤ wayLeft (w.chain.link n).a (side w.server) := by
        rcases (server_move hst hpe).2 with e | ⟨ev, hm⟩
        · rw [e]; exact Nat.le_refl _
        · exact (server_way hm r1 r2).1
      rcases Nat.lt_or_eq_of_le hle with hl | hl
      · exact less hl
      · refine Prod.lex_def.2 (.inr ⟨?_, .left _ _ (work_decreases hst hp)⟩)
        funext j
        simp only [remoteWork, upLeft]
        by_cases hj : j ≤ n
        · simp only [hj, if_true]
          by_cases e : j = n
          · subst e; rw [u0, v0, hl]
          · exact u j (by omega)
        · simp only [hj, if_false]

theorem remote_append {u v w : Remote.World} {as bs : List Remote.Ev}
    (h1 : Remote.Steps kc kl n process u as v) (h2 : Remote.Steps kc kl n process v bs w) :
    Remote.Steps kc kl n process u (as ++ bs) w := by
  induction h2 with
  | nil => simpa using h1
  | snoc _ h4 ih => rw [← List.append_assoc]; exact .snoc ih h4

/-- C144: as long as the application of the client only receives, nothing can go on for ever between the client and the
server, whatever the server does with what it has got, and there is a run to a state where nothing can happen any more. -/
theorem C144_settles {w : Remote.World} {as : List Remote.Ev} (h : Remote.Steps kc kl n process {} as w) :
    (¬ ∃ f : Nat → Remote.World, f 0 = w ∧
      ∀ k, ∃ a, Remote.Step kc kl n process (f k) a (f (k + 1)) ∧ ∀ e, a = .client e → e.app = false) ∧
    ∃ bs u, Remote.Steps kc kl n process w bs u ∧ Remote.Quiet kc kl n process u ∧ ∀ a ∈ bs, a.free = false := by
  constructor
  · rintro ⟨f, h0, hf⟩
    have hr : ∀ k, ∃ as, Remote.Steps kc kl n process {} as (f k) := by
      intro k
      induction k with
      | zero => rw [h0]; exact ⟨_, h⟩
      | succ k ih =>
        obtain ⟨as, ih⟩ := ih
        obtain ⟨x, h1, _⟩ := hf k
        exact ⟨_, .snoc ih h1⟩
    have : ∀ g, ∀ k, remoteWork n (f k) = g → False := by
      intro g
      induction g using (nearer_wf n).induction with
      | _ g ih =>
        rintro k rfl
        obtain ⟨x, h1, h2⟩ := hf k
        obtain ⟨as, hk⟩ := hr k
        obtain ⟨hc, he⟩ := remote_chain hk
        exact ih _ (remote_work hc he h1 h2) (k + 1) rfl
    exact this _ 0 rfl
  · suffices ∀ g w' bs, remoteWork n w' = g → Remote.Steps kc kl n process w bs w' → (∀ a ∈ bs, a.free = false) →
        ∃ bs u, Remote.Steps kc kl n process w bs u ∧ Remote.Quiet kc kl n process u ∧ ∀ a ∈ bs, a.free = false from
      this _ w [] rfl (.nil w) (by simp)
    intro g
    induction g using (nearer_wf n).induction with
    | _ g ih =>
      rintro w' bs rfl hr hb
      by_cases hq : Remote.Quiet kc kl n process w'
      · exact ⟨bs, w', hr, hq, hb⟩
      · unfold Remote.Quiet at hq
        simp only [Classical.not_forall, Bool.not_eq_true] at hq
        obtain ⟨x, w'', hs, hf⟩ := hq
        obtain ⟨hc, he⟩ := remote_chain (remote_append h hr)
        refine ih _ (remote_work hc he hs (by rintro e rfl; exact hf)) w'' (bs ++ [x]) rfl (.snoc hr hs) ?_
        intro b hm
        rcases List.mem_append.1 hm with hm | hm
        · exact hb b hm
        · rw [List.mem_singleton.1 hm]; exact hf

/-- What only the application of the client can change. -/
theorem remote_keeps {w u : Remote.World} {as : List Remote.Ev} (h : Remote.Steps kc kl n process w as u)
    (hf : ∀ a ∈ as, a.free = false) :
    (u.chain.link 0).a.gone = (w.chain.link 0).a.gone ∧ (u.chain.link 0).a.io.accepted = (w.chain.link 0).a.io.accepted ∧
    (u.chain.link 0).a.io.rxAlive = (w.chain.link 0).a.io.rxAlive ∧
    (u.chain.link 0).a.io.txAlive = (w.chain.link 0).a.io.txAlive := by
  induction h with
  | nil => exact ⟨rfl, rfl, rfl, rfl⟩
  | @snoc _ v a u _ hs ih =>
    obtain ⟨a1, a2, a3, a4⟩ := ih (fun e hm => hf e (List.mem_append_left _ hm))
    have hfa := hf a (List.mem_append_right _ (List.mem_singleton.2 rfl))
    suffices h : (u.chain.link 0).a.gone = (v.chain.link 0).a.gone ∧
        (u.chain.link 0).a.io.accepted = (v.chain.link 0).a.io.accepted ∧
        (u.chain.link 0).a.io.rxAlive = (v.chain.link 0).a.io.rxAlive ∧
        (u.chain.link 0).a.io.txAlive = (v.chain.link 0).a.io.txAlive from
      ⟨h.1.trans a1, h.2.1.trans a2, h.2.2.1.trans a3, h.2.2.2.trans a4⟩
    cases hs with
    | client hm =>
      cases hm with
      | client hm => simp only [set_self]; exact move_keeps hm hfa
    | relay hm =>
      cases hm with
      | @relay j b hj hm =>
        have e : ((v.chain.put j b).link 0).a = (v.chain.link 0).a := by
          by_cases e : 0 = j
          · subst e; rw [put_self]; exact (relay_sides hm).1.1
          · rw [put_other _ _ e (by omega)]
        simp only [e]; exact ⟨trivial, trivial, trivial, trivial⟩
    | server =>
      by_cases e : 0 = n
      · subst e; simp only [set_self]; exact ⟨trivial, trivial, trivial, trivial⟩
      · simp only [set_other _ _ e]; exact ⟨trivial, trivial, trivial, trivial⟩

/-- C144: hence, once the client has sent exit and has dropped its sender, and whatever has happened before, it need only go
on receiving: there is a continuation to that end, there is no infinite one (`C144_settles`), and each that cannot be
continued ends there (`C144_served`). -/
theorem C144_ends (hp : Spec.Plan process said early id ip v pre) {w : Remote.World} {as : List Remote.Ev}
    (h : Remote.Steps kc kl n process {} as w) (hg : (w.chain.link 0).a.gone = false)
    (hx : (w.chain.link 0).a.io.accepted = said ++ [.notification .exit]) (hr : (w.chain.link 0).a.io.rxAlive = true)
    (ht : (w.chain.link 0).a.io.txAlive = false) :
    ∃ bs u, Remote.Steps kc kl n process w bs u ∧ (∀ a ∈ bs, a.free = false) ∧ u.server.exit = some true ∧
    join kc (u.chain.link 0).a.io = .ok ∧ (∀ i < n, (u.chain.link i).b.gone = true) ∧
    ∃ ms, Spec.Served early id v (Spec.requests pre) ms ∧ (u.chain.link 0).a.io.delivered = ms.map Message.norm := by
  obtain ⟨bs, u, h1, h2, h3⟩ := (C144_settles h).2
  obtain ⟨k1, k2, k3, k4⟩ := remote_keeps h1 h3
  obtain ⟨s1, s2, s3, s4⟩ := C144_served hp (remote_append h h1) (k1.trans hg) (k2.trans hx) (k3.trans hr) (k4.trans ht) h2
  exact ⟨bs, u, h1, h3, s1, (s2 0 (Nat.zero_le _)).1, fun i hi => (s3 i hi).1, s4⟩

/-- A client that says this, at the beginning of a chain. -/
theorem remote_says (kc : Kind) (kl : Nat → Kind) (n : Nat) (process : InitializeBuild → Option Value)
    (ms : List Message) : ∃ as c, Remote.Steps kc kl n process {} as ⟨c, {}⟩ ∧ (c.link 0).a = saidSide ms := by
  have wrote : ∀ m : Message, Frame.write m ≠ [] := by
    intro m e
    have := congrArg List.length e
    simp [Frame.write, Frame.frame, utf8] at this
    exact absurd this.1 (by decide)
  have step : ∀ {as c x io act}, Remote.Steps kc kl n process {} as ⟨c, {}⟩ → (c.link 0).a = x → x.gone = false →
      Transport.Step kc x.io act io → (∀ bs, act ≠ .arrive bs) → (∀ b, act ≠ .hangUp b) → act ≠ .writeFails →
      ∃ as c, Remote.Steps kc kl n process {} as ⟨c, {}⟩ ∧ (c.link 0).a = { x with io } := by
    rintro as c x io act h rfl hg hs h1 h2 h3
    exact ⟨_, _, .snoc h (.client (.client (.own hg hs h1 h2 h3))), by rw [set_self]⟩
  have c : ∀ (r l : List Message), (∃ as c, Remote.Steps kc kl n process {} as ⟨c, {}⟩ ∧
        (c.link 0).a = ⟨{ out := l.flatMap Frame.write, accepted := l }, false⟩) →
      ∃ as c, Remote.Steps kc kl n process {} as ⟨c, {}⟩ ∧
        (c.link 0).a = ⟨{ out := (l ++ r).flatMap Frame.write, accepted := l ++ r }, false⟩ := by
    intro r
    induction r with
    | nil => intro l h; rw [List.append_nil]; exact h
    | cons m r ih =>
      rintro l ⟨as, c, h, e⟩
      obtain ⟨as1, c1, h1, e1⟩ := step h e rfl (.accept _ m rfl rfl) (by simp) (by simp) (by simp)
      obtain ⟨as2, c2, h2, e2⟩ := step h1 e1 rfl (.write _ (Frame.write m) [] (by simp) (wrote m)) (by simp) (by simp) (by simp)
      obtain ⟨as3, c3, h3, e3⟩ := step h2 e2 rfl (.written _ rfl) (by simp) (by simp) (by simp)
      have := ih (l ++ [m]) ⟨as3, c3, h3, by rw [e3]; simp⟩
      simpa using this
  obtain ⟨as, c, h, e⟩ := c ms [] ⟨[], {}, .nil _, rfl⟩
  exact step h e rfl (.dropTx _) (by simp) (by simp) (by simp)

end

section
attribute [local instance] Ext.sample FloatText.sample Dbg.sample

/-- Beside C144: the conversation beside C96, through any number of relays, with any kinds of connections. -/
example (kc : Kind) (kl : Nat → Kind) (n : Nat) : ∃ as w, Remote.Steps kc kl n sampleHandler {} as w ∧
    Remote.Quiet kc kl n sampleHandler w ∧ w.server.exit = some true ∧ join kc (w.chain.link 0).a.io = .ok ∧
    (∀ i < n, (w.chain.link i).b.gone = true) ∧ (w.chain.link 0).a.io.delivered.length = 3 := by
  obtain ⟨as, c, h, e⟩ := remote_says kc kl n sampleHandler (sampleSaid ++ [.notification .exit])
  obtain ⟨bs, w, h1, h2, h3⟩ := (C144_settles h).2
  obtain ⟨k1, k2, k3, k4⟩ := remote_keeps h1 h3
  simp only [e] at k1 k2 k3 k4
  obtain ⟨s1, s2, s3, ms, h4, h5⟩ := C144_served samplePlan (remote_append h h1) k1 k2 k3 k4 h2
  refine ⟨_, w, remote_append h h1, h2, s1, (s2 0 (Nat.zero_le _)).1, fun i hi => (s3 i hi).1, ?_⟩
  obtain ⟨refs, rs, h6, h7, h8⟩ := h4
  have := h7.length
  cases h8 with
  | cons _ h8 => cases h8; simp [h5, h6, this]

/-- Beside C144_rest: the same before exit. -/
example (kc : Kind) (kl : Nat → Kind) (n : Nat) : ∃ as w, Remote.Steps kc kl n sampleHandler {} as w ∧
    Remote.Quiet kc kl n sampleHandler w ∧ w.server.exit = none ∧ (w.chain.link 0).a.io.delivered.length = 3 := by
  obtain ⟨as, c, h, e⟩ := remote_says kc kl n sampleHandler sampleSaid
  obtain ⟨bs, w, h1, h2, h3⟩ := (C144_settles h).2
  obtain ⟨k1, k2, k3, _⟩ := remote_keeps h1 h3
  simp only [e] at k1 k2 k3
  obtain ⟨s1, _, ms, h4, h5⟩ := C144_rest samplePlan (remote_append h h1) k1 k2 k3 h2
  refine ⟨_, w, remote_append h h1, h2, s1, ?_⟩
  obtain ⟨refs, rs, h6, h7, h8⟩ := h4
  have := h7.length
  cases h8 with
  | cons _ h8 => cases h8; simp [h5, h6, this]

/-- Beside C144_prefix, C144_ends. -/
example (kc : Kind) (kl : Nat → Kind) (n : Nat) : ∃ as w, Remote.Steps kc kl n sampleHandler {} as w ∧
    w.server.exit ≠ some false ∧ ∃ bs u, Remote.Steps kc kl n sampleHandler w bs u ∧ u.server.exit = some true := by
  obtain ⟨as, c, h, e⟩ := remote_says kc kl n sampleHandler (sampleSaid ++ [.notification .exit])
  have p := C144_prefix samplePlan h (by simp only [e]; rfl) (by simp only [e]; exact List.prefix_refl _) (by simp only [e]; rfl)
  obtain ⟨bs, u, h1, _, h2, _⟩ := C144_ends samplePlan h (by simp only [e]; rfl) (by simp only [e]; rfl) (by simp only [e]; rfl)
    (by simp only [e]; rfl)
  exact ⟨as, _, h, p.1, bs, u, h1, h2⟩

end
end Bsp
