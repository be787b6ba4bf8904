/-
C145: the server of the README at the end of a chain of relays with finite buffers.
-/
import Verif.Reach
import Verif.Props.Remote
import Verif.Props.Narrow

set_option linter.unusedSectionVars false

namespace Bsp
open Frame Transport Link
open Bridge (Who)
open Conn (Dbg)
open Session (Proc kindOf)
open EndToEnd (side)
open Flow (Caps Lets)

section
variable [LawfulExt] [Dbg] [FloatText] {process : InitializeBuild → Option Value}
  {c : Nat → Caps} {kc : Kind} {kl : Nat → Kind} {n : Nat}
  {said : List Message} {early : List Request} {id : RequestId} {ip : InitializeBuild} {v : Value} {pre : List Message}

theorem reach_remote {w u : Remote.World} {as : List Remote.Ev} (h : Reach.Steps c kc kl n process w as u) :
    Remote.Steps kc kl n process w as u := by
  induction h with
  | nil => exact .nil _
  | snoc _ hs ih => exact .snoc ih hs.step

theorem reach_append {u v w : Remote.World} {as bs : List Remote.Ev}
    (h1 : Reach.Steps c kc kl n process u as v) (h2 : Reach.Steps c kc kl n process v bs w) :
    Reach.Steps c kc kl n process u (as ++ bs) w := by
  induction h2 with
  | nil => simpa using h1
  | snoc _ h4 ih => rw [← List.append_assoc]; exact .snoc ih h4

/-- The buffers do not hinder the server in what writes nothing and takes nothing. -/
theorem reach_server {w : Remote.World} {a : Session.Act} {p : Proc} (he : (w.chain.link n).b = side w.server)
    (hst : Session.Step (kl n) process w.server a p)
    (hpe : a = .peer ∨ a = .writeFails → ∃ act, Session.kindOf act = some a ∧
      Move (kl n) (Chain.near kc n) (side w.server) (w.chain.link n).a (.act act) (side p))
    (h1 : p.io.out = w.server.io.out) (h2 : p.io.arrived = w.server.io.arrived) :
    Reach.Step c kc kl n process w (.server a) ⟨w.chain.set n { w.chain.link n with b := side p }, p⟩ :=
  ⟨.server hst hpe, fun i _ => set_lets (link_lets_b (.inl (by rw [he]; exact h1)) (.inl (by rw [he]; exact h2))) i⟩

/-! ### At rest -/

/-- When nothing can happen any more, nothing can in the chain with its buffers, but that the server might receive. -/
theorem reach_hushed {w : Remote.World} (hq : Reach.Quiet c kc kl n process w)
    (he : (w.chain.link n).b = side w.server) : Hushed c kc kl n w.chain := by
  rintro x c' ⟨hs, hl⟩
  cases hs with
  | client hm => exact .inl (hq _ _ ⟨.client (.client hm), hl⟩)
  | relay hj hm => cases hq _ _ ⟨.relay (.relay hj hm), hl⟩
  | @server ev b hm =>
    rw [he] at hm
    cases ha : ev.app with
    | true => exact .inl ha
    | false =>
      have hx : w.server.exit = none := by
        have := move_awake hm
        simpa [side] using this
      have io : ∀ {act io' a}, Transport.Step (kl n) w.server.io act io' → kindOf act = some a →
          a = .thread ∨ a = .peer ∨ a = .writeFails →
          Move (kl n) (Chain.near kc n) (side w.server) (w.chain.link n).a (.act act) ⟨io', w.server.exit.isSome⟩ →
          (∀ i ≤ n, Lets (c i) (w.chain.link i)
            ((w.chain.set n { w.chain.link n with b := ⟨io', w.server.exit.isSome⟩ }).link i)) → False := by
        intro act io' a h1 h2 h3 h4 h5
        have := hq _ _ ⟨.server (.io hx h1 h2) (fun _ => ⟨act, h2, h4⟩), h5⟩
        rcases h3 with rfl | rfl | rfl <;> cases this
      have hm0 := hm
      cases hm with
      | @own act io' h0 h1 h2 h3 h4 =>
        have h1' := h1
        cases h1 with
        | arrive bs _ => exact absurd rfl (h2 bs)
        | hangUp b _ => exact absurd rfl (h3 b)
        | writeFails b _ => exact absurd rfl h4
        | accept => cases ha
        | dropRx => cases ha
        | dropTx => cases ha
        | deliver m => exact .inr ⟨m, rfl⟩
        | read r i1 i2 => exact (io h1' rfl (.inl rfl) hm0 hl).elim
        | undeliverable m i1 i2 => exact (io h1' rfl (.inl rfl) hm0 hl).elim
        | write a b i1 i2 => exact (io h1' rfl (.inl rfl) hm0 hl).elim
        | written i1 => exact (io h1' rfl (.inl rfl) hm0 hl).elim
        | close i1 i2 => exact (io h1' rfl (.inl rfl) hm0 hl).elim
      | arrive h0 h1 h2 h3 => exact (io h3 rfl (.inr (.inl rfl)) hm0 hl).elim
      | fin h0 h1 h2 h3 => exact (io h3 rfl (.inr (.inl rfl)) hm0 hl).elim
      | reset h0 h1 h2 h3 h4 => exact (io h4 rfl (.inr (.inl rfl)) hm0 hl).elim
      | fails h0 h1 h2 h3 h4 => exact (io h4 rfl (.inr (.inr rfl)) hm0 hl).elim
      | exit h0 => cases ha

/-- Nor is there anything that the server might receive: it does not wait for ever for room. -/
theorem reach_quiet (hc : ∀ i ≤ n, 1 ≤ (c i).toLeft) {w : Remote.World} {bs : List Session.Act}
    (hr : Chain.Reachable kc kl n w.chain) (hp : Spec.Passing said (w.chain.ends n))
    (hq : Reach.Quiet c kc kl n process w) (he : (w.chain.link n).b = side w.server)
    (hb : Session.Steps (kl n) process {} bs w.server) : Narrow.Quiet c kc kl n w.chain := by
  intro x c' hn
  rcases reach_hushed hq he x c' hn with h | ⟨m, rfl⟩
  · exact h
  exfalso
  have no : ∀ {a p}, Session.Step (kl n) process w.server a p → a = .thread ∨ a = .main ∨ a = .drop →
      p.io.out = w.server.io.out → p.io.arrived = w.server.io.arrived → False := by
    intro a p hs ha h1 h2
    have := hq _ _ (reach_server he hs (by rcases ha with rfl | rfl | rfl <;> simp) h1 h2)
    rcases ha with rfl | rfl | rfl <;> cases this
  cases hn.step with
  | server hm =>
    rw [he] at hm
    have hx : w.server.exit = none := by
      have := move_awake hm
      simpa [side] using this
    have hgb : (w.chain.link n).b.gone = false := by rw [he]; simp [side, hx]
    cases hm with
    | own _ h1 _ _ _ =>
      cases h1 with
      | deliver m i1 i2 =>
        have rc : w.server.app.receives = true → False := fun e =>
          no (.recv hx e (.deliver _ m i1 i2)) (.inr (.inl rfl)) rfl rfl
        have sd : ∀ x, Session.toSend w.server.app = some x → (∀ r, w.server.app ≠ .ended r) → False := by
          intro x e hne
          have htx : w.server.io.txAlive = true := by
            cases e : w.server.io.txAlive with
            | true => rfl
            | false =>
              obtain ⟨r, h⟩ := (mainInv hb).gone (.inr e)
              exact absurd h (hne r)
          cases ew : w.server.io.writer with
          | idle => exact no (.send hx e (.accept _ x ew htx)) (.inr (.inl rfl)) rfl rfl
          | writing r =>
            cases r with
            | nil => exact no (.io hx (.written _ ew) rfl) (.inl rfl) rfl rfl
            | cons b r =>
              exact narrow_writes_b hc hr hp (reach_hushed hq he) (Nat.le_refl n) hgb b r (by rw [he]; exact ew)
          | _ => exact no (.unsent hx e (by rw [ew]; rfl)) (.inr (.inl rfl)) rfl rfl
        cases ea : w.server.app with
        | ended r => exact no (.dropRx hx ea i2) (.inr (.inr rfl)) rfl rfl
        | start => exact rc (by rw [ea]; rfl)
        | confirming => exact rc (by rw [ea]; rfl)
        | idle => exact rc (by rw [ea]; rfl)
        | leaving => exact rc (by rw [ea]; rfl)
        | refusing r => exact sd _ (by rw [ea]; rfl) (by rw [ea]; simp)
        | replying i r => exact sd _ (by rw [ea]; rfl) (by rw [ea]; simp)
        | answering r => exact sd _ (by rw [ea]; rfl) (by rw [ea]; simp)
        | stopping i => exact sd _ (by rw [ea]; rfl) (by rw [ea]; simp)

theorem app_bytes {k k' : Kind} {x y x' : Side} {ev : Link.Ev} (h : Move k k' x y ev x') (ha : ev.app = true) :
    x'.io.out = x.io.out ∧ x'.io.arrived = x.io.arrived := by
  cases h with
  | own _ hs _ _ _ =>
    cases hs with
    | accept => exact ⟨rfl, rfl⟩
    | dropRx => exact ⟨rfl, rfl⟩
    | dropTx => exact ⟨rfl, rfl⟩
    | _ => cases ha
  | exit _ => exact ⟨rfl, rfl⟩
  | _ => cases ha

/-- What the chain is to the two programs. -/
theorem reach_passing (hp : Spec.Plan process said early id ip v pre) {w : Remote.World} {as : List Remote.Ev}
    (h : Reach.Steps c kc kl n process {} as w) (hs : Spec.Speaks (said ++ [.notification .exit]) w) :
    Chain.Reachable kc kl n w.chain ∧ (w.chain.link n).b = side w.server ∧ Spec.Passing said (w.chain.ends n) ∧
    ∃ bs, Session.Steps (kl n) process {} bs w.server := by
  obtain ⟨hr, he⟩ := remote_chain (reach_remote h)
  obtain ⟨bs, hl⟩ := remote_last hp (reach_remote h) hs
  obtain ⟨bs', hgo⟩ := going (hop_plan hp n) hl (speaks_last hp hr hs).2
  exact ⟨hr, he, last_passing hp hr he hl hs, _, hgo.sess⟩

/-- C145: a client that uses this library has the server of the README at the other end of `n` relays, with buffers of
whatever size (at least one byte) on each connection.  As long as it keeps to the plan and goes on receiving: when nothing can
happen any more, it is not for want of room in the buffers, nor because somebody does not take what has come - with any other
buffers, or without limit, nothing could happen either. -/
theorem C145_rest (hc : ∀ i ≤ n, 1 ≤ (c i).toRight ∧ 1 ≤ (c i).toLeft) (hp : Spec.Plan process said early id ip v pre)
    {w : Remote.World} {as : List Remote.Ev} (h : Reach.Steps c kc kl n process {} as w)
    (hg : (w.chain.link 0).a.gone = false) (hx : (w.chain.link 0).a.io.accepted <+: said ++ [.notification .exit])
    (hr : (w.chain.link 0).a.io.rxAlive = true) (hq : Reach.Quiet c kc kl n process w) :
    Remote.Quiet kc kl n process w := by
  obtain ⟨hw, he, hpass, _, hb⟩ := reach_passing hp h ⟨hg, hr, hx⟩
  have hcq := C143_rest hc hw hpass (reach_quiet (fun i hi => (hc i hi).2) hw hpass hq he hb)
  intro a u hs
  cases hs with
  | client hm => exact hcq _ _ hm
  | relay hm => cases hcq _ _ hm
  | @server a p hst hpe =>
    rcases (server_move hst hpe).2 with e | ⟨ev, hm⟩
    · exact hq _ _ (reach_server he hst hpe (congrArg (·.io.out) e) (congrArg (·.io.arrived) e))
    · cases ha : ev.app with
      | false =>
        have hm' := hm
        rw [← he] at hm'
        have := hcq (.server ev) _ (.server hm')
        simp only [Bridge.Who.free, ha] at this
        cases this
      | true => exact hq _ _ (reach_server he hst hpe (app_bytes hm ha).1 (app_bytes hm ha).2)

/-- C145: so, too, with finite buffers: when the client has sent all including exit, has dropped its sender and goes on
receiving, and nothing can happen any more, the server has exited with success, all relays have exited, every `join` returns
Ok, and the client has received exactly one answer to each request that the server has received, in order. -/
theorem C145_served (hc : ∀ i ≤ n, 1 ≤ (c i).toRight ∧ 1 ≤ (c i).toLeft) (hp : Spec.Plan process said early id ip v pre)
    {w : Remote.World} {as : List Remote.Ev} (h : Reach.Steps c kc kl n process {} as w)
    (hg : (w.chain.link 0).a.gone = false) (hx : (w.chain.link 0).a.io.accepted = said ++ [.notification .exit])
    (hr : (w.chain.link 0).a.io.rxAlive = true) (ht : (w.chain.link 0).a.io.txAlive = false)
    (hq : Reach.Quiet c kc kl n process w) :
    w.server.exit = some true ∧
    (∀ i ≤ n, join (Chain.near kc i) (w.chain.link i).a.io = .ok ∧ join (kl i) (w.chain.link i).b.io = .ok) ∧
    (∀ i < n, (w.chain.link i).b.gone = true ∧ (w.chain.link (i + 1)).a.gone = true) ∧
    ∃ ms, Spec.Served early id v (Spec.requests pre) ms ∧ (w.chain.link 0).a.io.delivered = ms.map Message.norm :=
  C144_served hp (reach_remote h) hg hx hr ht
    (C145_rest hc hp h hg (by rw [hx]; exact List.prefix_refl _) hr hq)

/-- C145: and before exit, when the client has sent the rest of it, the server waits and every request has been answered. -/
theorem C145_answered (hc : ∀ i ≤ n, 1 ≤ (c i).toRight ∧ 1 ≤ (c i).toLeft) (hp : Spec.Plan process said early id ip v pre)
    {w : Remote.World} {as : List Remote.Ev} (h : Reach.Steps c kc kl n process {} as w)
    (hg : (w.chain.link 0).a.gone = false) (hx : (w.chain.link 0).a.io.accepted = said)
    (hr : (w.chain.link 0).a.io.rxAlive = true) (hq : Reach.Quiet c kc kl n process w) :
    w.server.exit = none ∧ w.server.io.delivered = said.map Spec.heard ∧
    ∃ ms, Spec.Served early id v (Spec.requests pre) ms ∧ (w.chain.link 0).a.io.delivered = ms.map Message.norm :=
  C144_rest hp (reach_remote h) hg hx hr (C145_rest hc hp h hg (by rw [hx]; exact List.prefix_append _ _) hr hq)

/-- C145: as long as the client has its sender it does not wait for ever in `send`: when nothing else can happen any more it
can send the next message, whatever it is. -/
theorem C145_sends (hc : ∀ i ≤ n, 1 ≤ (c i).toRight ∧ 1 ≤ (c i).toLeft) (hp : Spec.Plan process said early id ip v pre)
    {w : Remote.World} {as : List Remote.Ev} (h : Reach.Steps c kc kl n process {} as w)
    (hg : (w.chain.link 0).a.gone = false) (hx : (w.chain.link 0).a.io.accepted <+: said ++ [.notification .exit])
    (hr : (w.chain.link 0).a.io.rxAlive = true) (ht : (w.chain.link 0).a.io.txAlive = true)
    (hq : Reach.Quiet c kc kl n process w) (m : Message) :
    ∃ u, Reach.Step c kc kl n process w (.client (.act (.accept m))) u ∧ (u.chain.link 0).a =
      { (w.chain.link 0).a with io := { (w.chain.link 0).a.io with
        writer := .writing (Frame.write m), accepted := (w.chain.link 0).a.io.accepted ++ [m] } } := by
  obtain ⟨hw, he, hpass, _, hb⟩ := reach_passing hp h ⟨hg, hr, hx⟩
  have hi := (narrow_idle hc hw hpass (reach_quiet (fun i hi => (hc i hi).2) hw hpass hq he hb)).1 ht
  have hn := narrow_client (c := c) (n := n) (kl := kl) (w := w.chain)
    (.own hg (.accept (k := kc) _ m hi ht) (by simp) (by simp) (by simp)) rfl rfl
  exact ⟨_, ⟨.client hn.step, hn.lets⟩, by rw [set_self]⟩

/-! ### Coming to rest -/

/-- C145: as long as the application of the client only receives, nothing can go on for ever, and there is a run to a state
where nothing can happen any more. -/
theorem C145_settles {w : Remote.World} {as : List Remote.Ev} (h : Reach.Steps c kc kl n process {} as w) :
    (¬ ∃ f : Nat → Remote.World, f 0 = w ∧
      ∀ k, ∃ a, Reach.Step c kc kl n process (f k) a (f (k + 1)) ∧ ∀ e, a = .client e → e.app = false) ∧
    ∃ bs u, Reach.Steps c kc kl n process w bs u ∧ Reach.Quiet c kc kl n process u ∧ ∀ a ∈ bs, a.free = false := by
  constructor
  · rintro ⟨f, h0, hf⟩
    refine (C144_settles (reach_remote h)).1 ⟨f, h0, fun k => ?_⟩
    obtain ⟨a, h1, h2⟩ := hf k
    exact ⟨a, h1.step, h2⟩
  · suffices ∀ g w' bs, remoteWork n w' = g → Reach.Steps c kc kl n process w bs w' → (∀ a ∈ bs, a.free = false) →
        ∃ bs u, Reach.Steps c kc kl n process w bs u ∧ Reach.Quiet c kc kl n process u ∧ ∀ a ∈ bs, a.free = false from
      this _ w [] rfl (.nil w) (by simp)
    intro g
    induction g using (nearer_wf n).induction with
    | _ g ih =>
      rintro w' bs rfl hr hb
      by_cases hq : Reach.Quiet c kc kl n process w'
      · exact ⟨bs, w', hr, hq, hb⟩
      · unfold Reach.Quiet at hq
        simp only [Classical.not_forall, Bool.not_eq_true] at hq
        obtain ⟨x, w'', hs, hf⟩ := hq
        obtain ⟨hw, he⟩ := remote_chain (reach_remote (reach_append h hr))
        refine ih _ (remote_work hw he hs.step (by rintro e rfl; exact hf)) w'' (bs ++ [x]) rfl (.snoc hr hs) ?_
        intro b hm
        rcases List.mem_append.1 hm with hm | hm
        · exact hb b hm
        · rw [List.mem_singleton.1 hm]; exact hf

/-- C145: hence, once the client has sent exit and has dropped its sender, and whatever has happened before, it need only go
on receiving, however small the buffers are. -/
theorem C145_ends (hc : ∀ i ≤ n, 1 ≤ (c i).toRight ∧ 1 ≤ (c i).toLeft) (hp : Spec.Plan process said early id ip v pre)
    {w : Remote.World} {as : List Remote.Ev} (h : Reach.Steps c kc kl n process {} as w)
    (hg : (w.chain.link 0).a.gone = false) (hx : (w.chain.link 0).a.io.accepted = said ++ [.notification .exit])
    (hr : (w.chain.link 0).a.io.rxAlive = true) (ht : (w.chain.link 0).a.io.txAlive = false) :
    ∃ bs u, Reach.Steps c kc kl n process w bs u ∧ (∀ a ∈ bs, a.free = false) ∧ u.server.exit = some true ∧
    join kc (u.chain.link 0).a.io = .ok ∧ (∀ i < n, (u.chain.link i).b.gone = true) ∧
    ∃ ms, Spec.Served early id v (Spec.requests pre) ms ∧ (u.chain.link 0).a.io.delivered = ms.map Message.norm := by
  obtain ⟨bs, u, h1, h2, h3⟩ := (C145_settles h).2
  obtain ⟨k1, k2, k3, k4⟩ := remote_keeps (reach_remote h1) h3
  obtain ⟨s1, s2, s3, s4⟩ := C145_served hc hp (reach_append h h1) (k1.trans hg) (k2.trans hx) (k3.trans hr) (k4.trans ht) h2
  exact ⟨bs, u, h1, h3, s1, (s2 0 (Nat.zero_le _)).1, fun i hi => (s3 i hi).1, s4⟩

/-! ### How much there is on the way -/

theorem reach_narrow {w : Remote.World} {as : List Remote.Ev} (h : Reach.Steps c kc kl n process {} as w) :
    Narrow.Reachable c kc kl n w.chain := by
  have key : ∀ {w0 w : Remote.World} {as}, Reach.Steps c kc kl n process w0 as w → w0 = {} →
      Narrow.Reachable c kc kl n w.chain := by
    intro w0 w as h
    induction h with
    | nil => rintro rfl; exact .start
    | snoc hst hs ih =>
      rintro rfl
      rcases (remote_step hs.step (remote_chain (reach_remote hst)).2).1 with e | ⟨x, hx⟩
      · rw [e]; exact ih rfl
      · exact .step (ih rfl) ⟨hx, hs.lets⟩
  exact key h rfl

/-- C145: with no room at all on one connection on the way to the server, the server never receives anything. -/
theorem C145_none {w : Remote.World} {as : List Remote.Ev} (h : Reach.Steps c kc kl n process {} as w) {i : Nat} (hi : i ≤ n)
    (hc : (c i).toRight = 0) : w.server.io.delivered = [] := by
  have := C143_none (reach_narrow h) hi hc
  rwa [(remote_chain (reach_remote h)).2] at this

/-- C145: a client that does not receive is stopped by the server, through all the relays: the answers to what it has sent are
never more than it has received, and what the buffers and the threads have room for on the way there and back. -/
theorem C145_ahead (hp : Spec.Plan process said early id ip v pre) {w : Remote.World} {as : List Remote.Ev}
    (h : Reach.Steps c kc kl n process {} as w) (hg : (w.chain.link 0).a.gone = false)
    (hx : (w.chain.link 0).a.io.accepted <+: said ++ [.notification .exit]) (hr : (w.chain.link 0).a.io.rxAlive = true) :
    (Spec.answers process ((w.chain.link 0).a.io.accepted.map Spec.heard)).length ≤ (w.chain.link 0).a.io.delivered.length +
      Spec.underway (fun i => (c i).toRight) n + 1 + Spec.underway (fun i => (c i).toLeft) n := by
  obtain ⟨hw, he, hpass, _, hb⟩ := reach_passing hp h ⟨hg, hr, hx⟩
  obtain ⟨h1, h2⟩ := C143_ahead (reach_narrow h) hpass
  obtain ⟨t, ht⟩ := (C142_order hw).1 hpass.okA
  obtain ⟨hl, lv⟩ := chain_leaving hw hpass (Nat.le_refl n)
  have wB := (leaveInv hl lv).wB
  have e : (keptLink (w.chain.link n)).b = side w.server := he
  rw [e] at wB
  rw [he] at h1 h2 ht
  have hat := (mainInv hb).at' (by cases (kl n) <;> first | exact wB.1 | exact wB.2)
  have h3 : (feed process .start w.server.io.delivered).2.length ≤ w.server.io.accepted.length + 1 := by
    cases hat with
    | rest _ h => rw [← h]; omega
    | sending _ _ h => rw [h]; simp
    | closed _ _ _ _ h => rw [← h]; omega
    | late _ _ _ h => rw [← h]; omega
  have h4 := feed_count (process := process) (feed process .start w.server.io.delivered).1 t
  have h5 := congrArg List.length ht
  simp only [List.length_append, List.length_map, side] at h1 h2 h5
  rw [answers_eq, ← ht]
  simp only [side]
  rw [feed_append, List.length_append]
  omega

/-! ### A whole conversation -/

/-- The client has sent this so far and can send more, and nothing else can happen. -/
theorem reach_said (hc : ∀ i ≤ n, 1 ≤ (c i).toRight ∧ 1 ≤ (c i).toLeft) (hp : Spec.Plan process said early id ip v pre) :
    ∀ k, ∀ ms : List Message, ms.length = k → ms <+: said ++ [.notification .exit] →
    ∃ as w, Reach.Steps c kc kl n process {} as w ∧ Reach.Quiet c kc kl n process w ∧ (w.chain.link 0).a.gone = false ∧
      (w.chain.link 0).a.io.accepted = ms ∧ (w.chain.link 0).a.io.rxAlive = true ∧ (w.chain.link 0).a.io.txAlive = true := by
  have settle : ∀ {as w ms}, Reach.Steps c kc kl n process {} as w → (w.chain.link 0).a.gone = false →
      (w.chain.link 0).a.io.accepted = ms → (w.chain.link 0).a.io.rxAlive = true → (w.chain.link 0).a.io.txAlive = true →
      ∃ as w, Reach.Steps c kc kl n process {} as w ∧ Reach.Quiet c kc kl n process w ∧ (w.chain.link 0).a.gone = false ∧
        (w.chain.link 0).a.io.accepted = ms ∧ (w.chain.link 0).a.io.rxAlive = true ∧
        (w.chain.link 0).a.io.txAlive = true := by
    intro as w ms h h1 h2 h3 h4
    obtain ⟨bs, u, r1, r2, r3⟩ := (C145_settles h).2
    obtain ⟨k1, k2, k3, k4⟩ := remote_keeps (reach_remote r1) r3
    exact ⟨_, u, reach_append h r1, r2, k1.trans h1, k2.trans h2, k3.trans h3, k4.trans h4⟩
  intro k
  induction k with
  | zero =>
    intro ms e _
    rw [List.length_eq_zero_iff.1 e]
    exact settle (.nil {}) rfl rfl rfl rfl
  | succ k ih =>
    intro ms e hs
    have hne : ms ≠ [] := by rintro rfl; cases e
    have e1 := List.dropLast_concat_getLast hne
    have hs' : ms.dropLast <+: said ++ [.notification .exit] := (List.dropLast_prefix _).trans hs
    obtain ⟨as, w, h, hq, h1, h2, h3, h4⟩ := ih ms.dropLast (by simp [e]) hs'
    obtain ⟨u, hu, ha⟩ := C145_sends hc hp h h1 (by rw [h2]; exact hs') h3 h4 hq (ms.getLast hne)
    refine settle (.snoc h hu) ?_ ?_ ?_ ?_ <;> rw [ha]
    · exact h1
    · simp only [h2, e1]
    · exact h3
    · exact h4

/-- C145: whatever such a conversation is, however long the chain and however small the buffers are, there is a run at whose
end it has taken place, every request that the server has received has been answered, and all have exited. -/
theorem C145_talk (hc : ∀ i ≤ n, 1 ≤ (c i).toRight ∧ 1 ≤ (c i).toLeft) (hp : Spec.Plan process said early id ip v pre) :
    ∃ as w, Reach.Steps c kc kl n process {} as w ∧ Reach.Quiet c kc kl n process w ∧
    (w.chain.link 0).a.io.accepted = said ++ [.notification .exit] ∧ w.server.exit = some true ∧
    join kc (w.chain.link 0).a.io = .ok ∧ (∀ i < n, (w.chain.link i).b.gone = true) ∧
    ∃ ms, Spec.Served early id v (Spec.requests pre) ms ∧ (w.chain.link 0).a.io.delivered = ms.map Message.norm := by
  obtain ⟨as, w, h, _, h1, h2, h3, h4⟩ := reach_said (kc := kc) (kl := kl) hc hp _ _ rfl (List.prefix_refl (said ++ [.notification .exit]))
  have hn := narrow_client (c := c) (n := n) (kl := kl) (w := w.chain)
    (.own h1 (.dropTx (k := kc) _) (by simp) (by simp) (by simp)) rfl rfl
  have hd := Reach.Steps.snoc h (a := .client (.act .dropTx)) (u := { w with chain := _ }) ⟨.client hn.step, hn.lets⟩
  obtain ⟨bs, u, r1, r2, r3⟩ := (C145_settles hd).2
  obtain ⟨k1, k2, k3, k4⟩ := remote_keeps (reach_remote r1) r3
  simp only [set_self] at k1 k2 k3 k4
  obtain ⟨s1, s2, s3, s4⟩ := C145_served hc hp (reach_append hd r1) (k1.trans h1) (k2.trans h2) (k3.trans h3) k4 r2
  exact ⟨_, u, reach_append hd r1, r2, k2.trans h2, s1, (s2 0 (Nat.zero_le _)).1, fun i hi => (s3 i hi).1, s4⟩

end

section
attribute [local instance] Ext.sample FloatText.sample Dbg.sample

/-- Beside C145_talk, C145_served: the conversation beside C96, through any number of relays, with buffers of one byte. -/
example (kc : Kind) (kl : Nat → Kind) (n : Nat) : ∃ as w, Reach.Steps (fun _ => ⟨1, 1⟩) kc kl n sampleHandler {} as w ∧
    Reach.Quiet (fun _ => ⟨1, 1⟩) kc kl n sampleHandler w ∧ w.server.exit = some true ∧
    (∀ i < n, (w.chain.link i).b.gone = true) ∧ (w.chain.link 0).a.io.delivered.length = 3 := by
  obtain ⟨as, w, h, hq, _, s1, _, s3, ms, h4, h5⟩ := C145_talk (c := fun _ => ⟨1, 1⟩) (kc := kc) (kl := kl) (n := n)
    (fun _ _ => ⟨Nat.le_refl _, Nat.le_refl _⟩) samplePlan
  refine ⟨as, w, h, hq, s1, s3, ?_⟩
  obtain ⟨refs, rs, h6, h7, h8⟩ := h4
  have := h7.length
  cases h8 with
  | cons _ h8 => cases h8; simp [h5, h6, this]

/-- Beside C145_none, C145_ahead: the client may send all the same, but not for ever. -/
example (kc : Kind) (n : Nat) : ∃ as w, Reach.Steps (fun _ => ⟨0, 5⟩) kc (fun _ => .socket) n sampleHandler {} as w ∧
    (∃ m, (w.chain.link 0).a.io.accepted = [m]) ∧ w.server.io.delivered = [] ∧
    (Spec.answers sampleHandler ((w.chain.link 0).a.io.accepted.map Spec.heard)).length ≤
      0 + Spec.underway (fun _ => 0) n + 1 + Spec.underway (fun _ => 5) n := by
  obtain ⟨m, ms, e⟩ : ∃ m ms, sampleSaid = m :: ms := ⟨_, _, rfl⟩
  have hn := narrow_client (c := fun _ => ⟨0, 5⟩) (n := n) (kl := fun _ => .socket) (w := ({} : Chain.World))
    (.own rfl (.accept (k := kc) _ m rfl rfl) (by simp) (by simp) (by simp)) rfl rfl
  have h : Reach.Steps (fun _ => ⟨0, 5⟩) kc (fun _ => .socket) n sampleHandler {} _ ⟨_, {}⟩ :=
    .snoc (.nil _) ⟨.client hn.step, hn.lets⟩
  exact ⟨_, _, h, ⟨m, rfl⟩, C145_none h (Nat.zero_le _) rfl,
    C145_ahead samplePlan h rfl ⟨ms ++ [.notification .exit], by rw [e]; rfl⟩ rfl⟩

/-- Beside C145_rest, C145_answered, C145_sends, C145_ends: the same before exit; then exit can be sent. -/
example (kc : Kind) (kl : Nat → Kind) (n : Nat) : ∃ as w, Reach.Steps (fun _ => ⟨1, 1⟩) kc kl n sampleHandler {} as w ∧
    Reach.Quiet (fun _ => ⟨1, 1⟩) kc kl n sampleHandler w ∧ Remote.Quiet kc kl n sampleHandler w ∧ w.server.exit = none ∧
    (w.chain.link 0).a.io.delivered.length = 3 ∧
    ∃ u, Reach.Step (fun _ => ⟨1, 1⟩) kc kl n sampleHandler w (.client (.act (.accept (.notification .exit)))) u := by
  have hc : ∀ i ≤ n, 1 ≤ ((fun _ => ⟨1, 1⟩ : Nat → Caps) i).toRight ∧ 1 ≤ ((fun _ => ⟨1, 1⟩ : Nat → Caps) i).toLeft :=
    fun _ _ => ⟨Nat.le_refl _, Nat.le_refl _⟩
  obtain ⟨as, w, h, hq, h1, h2, h3, h4⟩ := reach_said (kc := kc) (kl := kl) hc samplePlan _ _ rfl (List.prefix_append sampleSaid _)
  have hs : (w.chain.link 0).a.io.accepted <+: sampleSaid ++ [.notification .exit] := by rw [h2]; exact List.prefix_append _ _
  obtain ⟨s1, _, ms, h5, h6⟩ := C145_answered hc samplePlan h h1 h2 h3 hq
  obtain ⟨u, hu, _⟩ := C145_sends hc samplePlan h h1 hs h3 h4 hq (.notification .exit)
  refine ⟨as, w, h, hq, C145_rest hc samplePlan h h1 hs h3 hq, s1, ?_, u, hu⟩
  obtain ⟨refs, rs, h7, h8, h9⟩ := h5
  have := h8.length
  cases h9 with
  | cons _ h9 => cases h9; simp [h6, h7, this]

end
end Bsp
