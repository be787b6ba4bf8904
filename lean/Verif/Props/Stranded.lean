/-
C147: the server of the README behind relays, when the client goes without having sent exit.
-/
import Verif.Props.Reach
import Verif.Props.Orphan

set_option linter.unusedSectionVars false

namespace Bsp
open Frame Transport Link
open Bridge (Who)
open Conn (Dbg)
open Session (Proc kindOf)
open EndToEnd (side)

section
variable [LawfulExt] [Dbg] [FloatText] {process : InitializeBuild → Option Value}
  {kc : Kind} {kl : Nat → Kind} {j : Nat}
  {said : List Message} {early : List Request} {id : RequestId} {ip : InitializeBuild} {v : Value} {pre : List Message}

/-- The client has sent a beginning of that, perhaps with exit at the end, which the last relay has not passed on; and no write of the last relay on the way back has failed.  Nothing is said about
whether the client is there. -/
structure Spec.Behind (said : List Message) (j : Nat) (w : Remote.World) : Prop where
  said : (w.chain.link 0).a.io.accepted <+: said ++ [.notification .exit]
  unsaid : Message.notification .exit ∉ (w.chain.link (j + 1)).a.io.accepted
  wrote : (w.chain.link j).b.io.writer ≠ .failed ∧ (w.chain.link j).b.io.writer ≠ .panicked

theorem remote_grows {n : Nat} {w w' : Remote.World} {a : Remote.Ev} (hs : Remote.Step kc kl n process w a w')
    (he : (w.chain.link n).b = side w.server) (i : Nat) :
    Grows (w.chain.link i).a (w'.chain.link i).a ∧ Grows (w.chain.link i).b (w'.chain.link i).b := by
  rcases (remote_step hs he).1 with e | ⟨x, hx⟩
  · rw [e]; exact ⟨grows_refl _, grows_refl _⟩
  · exact chain_grows hx i

theorem behind_before {n : Nat} {w w' : Remote.World} {a : Remote.Ev} (hs : Remote.Step kc kl n process w a w')
    (he : (w.chain.link n).b = side w.server) (h : Spec.Behind said j w') : Spec.Behind said j w := by
  have g := remote_grows hs he
  refine ⟨(g 0).1.accepted.trans h.said, fun hm => h.unsaid ((g (j + 1)).1.accepted.subset hm), ?_, ?_⟩ <;> intro e
  · exact h.wrote.1 (((g j).2.writer (by rw [e]; rfl)).trans e)
  · exact h.wrote.2 (((g j).2.writer (by rw [e]; rfl)).trans e)

/-- The last connection. Proof helper for bsp-server/src/transporter.rs:47-80. -/
def tailOf (n : Nat) (w : Remote.World) : EndToEnd.World := ⟨(w.chain.link n).a, w.server⟩

/-- The last relay and the server are there and receive, and the last connection is as in C96. -/
structure Stays (kc : Kind) (kl : Nat → Kind) (n : Nat) (process : InitializeBuild → Option Value) (said : List Message)
    (w : Remote.World) : Prop where
  near : (w.chain.link n).a.gone = false ∧ (w.chain.link n).a.io.rxAlive = true
  far : w.server.exit = none ∧ w.server.io.rxAlive = true
  tail : ∃ bs, EndToEnd.Steps (Chain.near kc n) (kl n) process {} bs (tailOf n w)
  going : ∃ bs, Going (Chain.near kc n) (kl n) process (hop n said) bs (tailOf n w)

theorem behind_said (hp : Spec.Plan process said early id ip v pre) {n : Nat} {w : Remote.World}
    (h : Chain.Reachable kc kl n w.chain) (hb : (w.chain.link 0).a.io.accepted <+: said ++ [.notification .exit]) :
    (∀ m ∈ (w.chain.link 0).a.io.accepted, Spec.Sayable m) ∧
    (w.chain.link n).a.io.accepted <+: hop n said ++ [.notification .exit] := by
  have ok : ∀ m ∈ (w.chain.link 0).a.io.accepted, Spec.Sayable m := by
    intro m hm
    rcases List.mem_append.1 (hb.subset hm) with h1 | h1
    · exact hp.sayable m h1
    · rw [List.mem_singleton.1 h1]; exact exit_sayable
  refine ⟨ok, ?_⟩
  rw [← hop_end]
  exact (chain_sent h ok n (Nat.le_refl _)).1.trans (hop_prefix hb n)

/-- If the client has not sent exit, the last relay has not, either. -/
theorem behind_unsaid (hp : Spec.Plan process said early id ip v pre) {n : Nat} {w : Remote.World}
    (h : Chain.Reachable kc kl n w.chain) (hb : (w.chain.link 0).a.io.accepted <+: said) :
    Message.notification .exit ∉ (w.chain.link n).a.io.accepted := fun hm =>
  hp.noExit (hb.subset (hop_exit ((chain_sent h (fun m hm => hp.sayable m (hb.subset hm)) n (Nat.le_refl _)).1.subset hm)))

/-- As long as the last relay is there and receives, the server does. -/
theorem stays_of (hp : Spec.Plan process said early id ip v pre) {n : Nat} {w : Remote.World}
    (h : Chain.Reachable kc kl n w.chain) (hb : (w.chain.link 0).a.io.accepted <+: said ++ [.notification .exit])
    (hne : Message.notification .exit ∉ (w.chain.link n).a.io.accepted)
    (hn : (w.chain.link n).a.gone = false ∧ (w.chain.link n).a.io.rxAlive = true)
    (ht : ∃ bs, EndToEnd.Steps (Chain.near kc n) (kl n) process {} bs (tailOf n w)) :
    Stays kc kl n process said w := by
  obtain ⟨bs, hl⟩ := ht
  have hs := (behind_said hp h hb).2
  obtain ⟨cs, hg⟩ := going (hop_plan hp n) hl ⟨hn.1, hn.2, hs⟩
  have nx : Message.notification .exit ∉ w.server.io.delivered := by
    intro hd
    obtain ⟨m, hm, e⟩ := List.mem_map.1 ((C56_heard (link_pair hg.link) hg.leaving.okA).subset hd)
    rw [heard_exit e] at hm
    exact hne hm
  refine ⟨hn, ⟨?_, ?_⟩, ⟨bs, hl⟩, ⟨cs, hg⟩⟩
  · cases e : w.server.exit with
    | none => rfl
    | some b =>
      have := hg.leaving.gone.2 (by simp [linkOf, side, tailOf, e])
      exact absurd ((leave_reader hg.link hg.leaving (leaveInv hg.link hg.leaving)).2 this.1).2 nx
  · exact hg.leaving.rxB.resolve_right nx

theorem stays (hp : Spec.Plan process said early id ip v pre) {w : Remote.World} {as : List Remote.Ev}
    (h : Remote.Steps kc kl (j + 1) process {} as w) (hb : Spec.Behind said j w) :
    Stays kc kl (j + 1) process said w := by
  have key : ∀ {w0 w : Remote.World} {as}, Remote.Steps kc kl (j + 1) process w0 as w → w0 = {} →
      Spec.Behind said j w → Stays kc kl (j + 1) process said w := by
    intro w0 w as h
    induction h with
    | nil => rintro rfl hb; exact stays_of hp .start hb.said hb.unsaid ⟨rfl, rfl⟩ ⟨[], .nil _⟩
    | @snoc as w a w' hst hs ih =>
      rintro rfl hb
      obtain ⟨hr, he⟩ := remote_chain hst
      obtain ⟨hr', he'⟩ := remote_chain (.snoc hst hs)
      have s := ih rfl (behind_before hs he hb)
      obtain ⟨bs, hl⟩ := s.tail
      obtain ⟨_, hg⟩ := s.going
      have near : w'.server = w.server →
          (w'.chain.link (j + 1)).a.gone = false ∧ (w'.chain.link (j + 1)).a.io.rxAlive = true := by
        intro e
        have ok : ∀ m ∈ (w'.chain.link (j + 1)).b.io.accepted, Spec.Sayable m := by rw [he', e]; exact hg.leaving.okB
        have hu : Spec.Unbroken (j + 1) (j + 1) w'.chain :=
          ⟨(behind_said hp hr' hb.said).1, ok, hb.unsaid,
            by rw [he', e]; exact hg.leaving.sentB, fun e => by omega, fun _ => by rw [he', e]; exact ⟨by simp [side, s.far.1], s.far.2⟩,
            fun i hi => by obtain rfl : j = i := by omega
                           exact hb.wrote, fun e => by omega⟩
        obtain ⟨d, u⟩ := unbroken_hands hr' (Nat.le_refl _) hu
        obtain ⟨g1, _⟩ := unbroken_open hr' (Nat.le_refl _) hu d u
        refine ⟨g1, ?_⟩
        cases t : (w'.chain.link (j + 1)).a.io.rxAlive with
        | true => rfl
        | false => exact absurd ((bridgeInv (chain_around hr' j (by omega))).down.2 (.inl t)) (d j rfl)
      cases hs with
      | client hm =>
        cases hm with
        | @client _ c hm =>
          refine stays_of hp hr' hb.said hb.unsaid (near rfl) ⟨bs, ?_⟩
          have : tailOf (j + 1) { w with chain := w.chain.set 0 { w.chain.link 0 with a := c } } = tailOf (j + 1) w := by
            simp only [tailOf, set_other _ _ (show j + 1 ≠ 0 by omega)]
          rw [this]; exact hl
      | relay hm =>
        cases hm with
        | @relay i b hj hm =>
          refine stays_of hp hr' hb.said hb.unsaid (near rfl) ?_
          by_cases e : i = j
          · subst e
            have e3 : tailOf (i + 1) { w with chain := w.chain.put i b } = { tailOf (i + 1) w with client := b.right.a } := by
              simp only [tailOf, put_next]
            rw [e3]
            rcases (relay_sides hm).2.2 with h3 | ⟨ev, h3⟩
            · rw [h3]; exact ⟨bs, hl⟩
            · refine ⟨_, .snoc hl (.client (ev := ev) ?_)⟩
              change Move .socket (kl (i + 1)) (w.chain.link (i + 1)).a (side w.server) ev _
              rw [← he]
              exact h3
          · refine ⟨bs, ?_⟩
            have : tailOf (j + 1) { w with chain := w.chain.put i b } = tailOf (j + 1) w := by
              simp only [tailOf, put_other _ _ (show j + 1 ≠ i by omega) (show j + 1 ≠ i + 1 by omega)]
            rw [this]; exact hl
      | @server a p hst' hpe =>
        have e3 : tailOf (j + 1) ⟨w.chain.set (j + 1) { w.chain.link (j + 1) with b := side p }, p⟩ =
            { tailOf (j + 1) w with server := p } := by simp only [tailOf, set_self]
        refine stays_of hp hr' hb.said hb.unsaid (by simp only [set_self]; exact s.near) ?_
        rw [e3]
        exact ⟨_, .snoc hl (.server hst' hpe)⟩
  exact key h rfl hb

/-- C147: the server of the README behind one relay or more is there and goes on receiving for as long as the last relay has
not sent exit (and the client keeps to the plan in what it sends) and no write of the last relay on the way back has failed,
whatever else happens, also when the client and the other relays have gone: it is not told. -/
theorem C147_stays (hp : Spec.Plan process said early id ip v pre) {n : Nat} (hn : n = j + 1) {w : Remote.World}
    {as : List Remote.Ev} (h : Remote.Steps kc kl n process {} as w) (hx : (w.chain.link 0).a.io.accepted <+: said ++ [.notification .exit])
    (hne : Message.notification .exit ∉ (w.chain.link n).a.io.accepted)
    (hw : (w.chain.link j).b.io.writer ≠ .failed ∧ (w.chain.link j).b.io.writer ≠ .panicked) :
    w.server.exit = none ∧ w.server.io.rxAlive = true ∧ join (kl n) w.server.io = .waiting := by
  subst hn
  have s := stays hp h ⟨hx, hne, hw⟩
  obtain ⟨_, hg⟩ := s.going
  refine ⟨s.far.1, s.far.2, ?_⟩
  have := (link_open hg.link hg.leaving.okA hg.leaving.okB
    hne hg.leaving.sentB s.near.1
    (by simp [linkOf, side, tailOf, s.far.1]) s.near.2 s.far.2).2
  change w.server.io.reader.ended = false at this
  unfold join
  cases e : w.server.io.reader <;> simp [e, Reader.ended] at this ⊢

/-! ### After everything has been answered -/

theorem served_count {qs : List Request} {ms : List Message} (h : Spec.Served early id v qs ms) :
    ms.length = early.length + 1 + qs.length := by
  obtain ⟨refs, rs, h1, h2, h3⟩ := h
  have e1 := h2.length
  have e2 : rs.length = qs.length := by
    clear h1
    induction h3 with
    | nil => rfl
    | cons _ _ ih => simp [ih]
  simp [h1, e1, e2]; omega

/-- C147: a client that uses this library has said what it had to say to the server of the README, through one relay or
more, but not exit, and nothing can happen any more: everything has been answered (C144_rest).  Whatever happens then, and
in whatever way the client goes, as long as it does not send anything more the server stays for ever. -/
theorem C147_left (hp : Spec.Plan process said early id ip v pre) {n : Nat} (hn : 1 ≤ n) {w u : Remote.World}
    {as bs : List Remote.Ev} (h : Remote.Steps kc kl n process {} as w) (hg : (w.chain.link 0).a.gone = false)
    (hx : (w.chain.link 0).a.io.accepted = said) (hr : (w.chain.link 0).a.io.rxAlive = true)
    (hq : Remote.Quiet kc kl n process w) (hu : Remote.Steps kc kl n process w bs u)
    (hl : (u.chain.link 0).a.io.accepted = said) :
    u.server.exit = none ∧ u.server.io.rxAlive = true ∧ join (kl n) u.server.io = .waiting := by
  obtain ⟨j, rfl⟩ : ∃ j, n = j + 1 := ⟨n - 1, by omega⟩
  have hs : Spec.Speaks (said ++ [.notification .exit]) w := ⟨hg, hr, by rw [hx]; exact List.prefix_append _ _⟩
  obtain ⟨hc, he⟩ := remote_chain h
  obtain ⟨_, hlast⟩ := remote_last hp h hs
  have hpass := last_passing hp hc he hlast hs
  obtain ⟨_, hgo⟩ := going (hop_plan hp (j + 1)) hlast (speaks_last hp hc hs).2
  have hcq := remote_quiet hq he hgo.sess
  have hne : Message.notification .exit ∉ (w.chain.link 0).a.io.accepted := by rw [hx]; exact hp.noExit
  obtain ⟨one, hand, _⟩ := chain_drained hc hpass hne hcq
  obtain ⟨r1, _⟩ := C142_rest hc hpass hne hcq
  obtain ⟨_, _, ms, hms, hd⟩ := C144_rest hp h hg hx hr hq
  have full : Spec.Served early id v (Spec.requests pre) (Spec.answers process (Spec.session early id ip pre)) := by
    rw [answers_eq, feed_session hp.refused hp.accepts (plan_pre hp).1]
    exact ⟨early.map refusal, (Spec.requests pre).map Conn.reply, rfl, refusals _, replies _⟩
  have len : (w.chain.link j).b.io.accepted.length = (Spec.answers process (Spec.session early id ip pre)).length := by
    have e1 := congrArg List.length hd
    rw [r1] at e1
    have e2 := congrArg List.length (hand j (by omega)).2
    rw [(one (j + 1) (Nat.le_refl _)).2] at e2
    simp only [List.length_map] at e1 e2
    rw [← e2, e1, served_count hms, served_count full]
  -- the writer thread of the last relay on the way back
  have calm0 := (calm_rest hc hpass hcq j (by omega)).1
  have key : ∀ {w0 u : Remote.World} {bs}, Remote.Steps kc kl (j + 1) process w0 bs u → w0 = w →
      (u.chain.link 0).a.io.accepted <+: said →
      ((u.chain.link j).b.io.writer = .idle ∨ (u.chain.link j).b.io.writer = .done) ∧
      (w.chain.link j).b.io.accepted <+: (u.chain.link j).b.io.accepted := by
    intro w0 u bs hu
    induction hu with
    | nil => rintro rfl _; exact ⟨calm0, List.prefix_refl _⟩
    | @snoc bs u a u' hst hs' ih =>
      rintro rfl hl
      have hru := remote_append h hst
      obtain ⟨hc1, he1⟩ := remote_chain hru
      have hru' := remote_append hru (.snoc (.nil _) hs')
      obtain ⟨hc2, he2⟩ := remote_chain hru'
      have g := remote_grows hs' he1
      have hl1 := (g 0).1.accepted.trans hl
      obtain ⟨c1, c2⟩ := ih rfl hl1
      refine ⟨?_, c2.trans (g j).2.accepted⟩
      have st := stays hp hru ⟨hl1.trans (List.prefix_append _ _), behind_unsaid hp hc1 hl1, by rcases c1 with e | e <;> simp [e]⟩
      obtain ⟨_, hgu⟩ := st.going
      have bound : u.server.io.accepted.length ≤ (u.chain.link j).b.io.accepted.length := by
        have := ((mainInv hgu.sess).sent.trans (plan_stays (hop_plan hp (j + 1)) (going_heard hgu)).2.2).length_le
        have := c2.length_le
        change u.server.io.accepted.length ≤ _ at *
        omega
      cases hs' with
      | client hm =>
        cases hm with
        | client hm =>
          by_cases e : j = 0
          · subst e; simp only [set_self]; exact c1
          · simp only [set_other _ _ e]; exact c1
      | server => simp only [set_other _ _ (show j ≠ j + 1 by omega)]; exact c1
      | relay hm =>
        have bk := (chain_back hc2 (by rw [he2]; exact hgu.leaving.okB) 1 j (by omega)).1.length_le
        rw [he2] at bk
        simp only [hop, List.length_map] at bk
        cases hm with
        | @relay i b hi hm =>
          by_cases e : j = i
          · subst e
            simp only [put_self] at bk ⊢
            rcases (relay_sides hm).2.1 with h1 | ⟨ev, h1⟩
            · rw [h1]; exact c1
            · exact calm_move h1 (by
                have : (side u.server).io.accepted.length = u.server.io.accepted.length := rfl
                change b.left.b.io.accepted.length ≤ (u.chain.link j).b.io.accepted.length
                omega) c1
          · by_cases e' : j = i + 1
            · subst e'; simp only [put_next, (relay_sides hm).1.2]; exact c1
            · simp only [put_other _ _ e e']; exact c1
  obtain ⟨k1, _⟩ := key hu rfl (by rw [hl]; exact List.prefix_refl _)
  exact C147_stays hp rfl (remote_append h hu) (by rw [hl]; exact List.prefix_append _ _)
    (behind_unsaid hp (remote_chain (remote_append h hu)).1 (by rw [hl]; exact List.prefix_refl _)) (by rcases k1 with e | e <;> simp [e])

/-- C147: the same with buffers of any size (at least one byte) on each connection. -/
theorem C147_narrow {c : Nat → Flow.Caps} {n : Nat} (hc : ∀ i ≤ n, 1 ≤ (c i).toRight ∧ 1 ≤ (c i).toLeft)
    (hp : Spec.Plan process said early id ip v pre) (hn : 1 ≤ n) {w u : Remote.World}
    {as bs : List Remote.Ev} (h : Reach.Steps c kc kl n process {} as w) (hg : (w.chain.link 0).a.gone = false)
    (hx : (w.chain.link 0).a.io.accepted = said) (hr : (w.chain.link 0).a.io.rxAlive = true)
    (hq : Reach.Quiet c kc kl n process w) (hu : Reach.Steps c kc kl n process w bs u)
    (hl : (u.chain.link 0).a.io.accepted = said) :
    u.server.exit = none ∧ u.server.io.rxAlive = true ∧ join (kl n) u.server.io = .waiting :=
  C147_left hp hn (reach_remote h) hg hx hr (C145_rest hc hp h hg (by rw [hx]; exact List.prefix_append _ _) hr hq)
    (reach_remote hu) hl

/-- C147: and that does happen: for every such conversation, every number of relays from one on and buffers of every size
there is a run in which it takes place and has been answered, the client exits without having sent exit, and nothing can
happen any more while the server is still there. -/
theorem C147_strands {c : Nat → Flow.Caps} {n : Nat} (hc : ∀ i ≤ n, 1 ≤ (c i).toRight ∧ 1 ≤ (c i).toLeft)
    (hp : Spec.Plan process said early id ip v pre) (hn : 1 ≤ n) :
    ∃ as w, Reach.Steps c kc kl n process {} as w ∧ Reach.Quiet c kc kl n process w ∧ (w.chain.link 0).a.gone = true ∧
    (w.chain.link 0).a.io.accepted = said ∧ w.server.io.delivered = said.map Spec.heard ∧
    w.server.exit = none ∧ join (kl n) w.server.io = .waiting := by
  obtain ⟨as, w, h, hq, h1, h2, h3, _⟩ := reach_said (kc := kc) (kl := kl) hc hp _ _ rfl (List.prefix_append said [.notification .exit])
  have hx := narrow_client (c := c) (n := n) (kl := kl) (w := w.chain) (.exit (k := kc) h1) rfl rfl
  have hd : Reach.Steps c kc kl n process w _ { w with chain := _ } :=
    .snoc (.nil _) (a := .client .exit) ⟨.client hx.step, hx.lets⟩
  obtain ⟨bs, u, r1, r2, r3⟩ := (C145_settles (reach_append h hd)).2
  obtain ⟨k1, k2, _⟩ := remote_keeps (reach_remote r1) r3
  simp only [set_self] at k1 k2
  have hu := reach_append hd r1
  obtain ⟨s1, _, s3⟩ := C147_narrow hc hp hn h h1 h2 h3 hq hu (k2.trans h2)
  refine ⟨_, u, reach_append h hu, r2, k1, k2.trans h2, ?_, s1, s3⟩
  -- what the server had received it has received
  have d0 := (C145_answered hc hp h h1 h2 h3 hq).2.1
  obtain ⟨hcw, hew⟩ := remote_chain (reach_remote h)
  obtain ⟨hcu, heu⟩ := remote_chain (reach_remote (reach_append h hu))
  have grow : ∀ {w0 u : Remote.World} {bs}, Remote.Steps kc kl n process w0 bs u → w0 = w →
      (w.chain.link n).b.io.delivered <+: (u.chain.link n).b.io.delivered := by
    intro w0 u bs hu
    induction hu with
    | nil => rintro rfl; exact List.prefix_refl _
    | snoc hst hs ih =>
      rintro rfl
      exact (ih rfl).trans (remote_grows hs (remote_chain (remote_append (reach_remote h) hst)).2 n).2.delivered
  have g := grow (reach_remote hu) rfl
  have o := (C142_order hcu).1 (by rw [k2.trans h2]; exact hp.sayable)
  rw [k2.trans h2] at o
  rw [hew, heu] at g
  rw [heu] at o
  have g' : w.server.io.delivered <+: u.server.io.delivered := g
  rw [d0] at g'
  exact (o.eq_of_length_le g'.length_le)

end

section
attribute [local instance] Ext.sample FloatText.sample Dbg.sample

/-- Beside C147_left: the conversation beside C144_rest, through any number of relays but none, with any kinds of connections.
Then the client exits.  When nothing can happen any more after that, the server waits. -/
example (kc : Kind) (kl : Nat → Kind) (n : Nat) : ∃ as w, Remote.Steps kc kl (n + 1) sampleHandler {} as w ∧
    Remote.Quiet kc kl (n + 1) sampleHandler w ∧ (w.chain.link 0).a.gone = true ∧ w.server.exit = none ∧
    join (kl (n + 1)) w.server.io = .waiting := by
  obtain ⟨as, c, h, e⟩ := remote_says kc kl (n + 1) sampleHandler sampleSaid
  obtain ⟨bs, w, h1, h2, h3⟩ := (C144_settles h).2
  obtain ⟨k1, k2, k3, _⟩ := remote_keeps h1 h3
  simp only [e] at k1 k2 k3
  have hw := remote_append h h1
  have hx : Remote.Step kc kl (n + 1) sampleHandler w (.client .exit) _ := .client (.client (.exit k1))
  have h4 := remote_append hw (.snoc (.nil _) hx)
  obtain ⟨cs, u, h5, h6, h7⟩ := (C144_settles h4).2
  obtain ⟨m1, m2, _⟩ := remote_keeps h5 h7
  simp only [set_self] at m1 m2
  obtain ⟨s1, _, s3⟩ := C147_left samplePlan (by omega) hw k1 k2 k3 h2 (remote_append (.snoc (.nil _) hx) h5) (m2.trans k2)
  exact ⟨_, u, remote_append h4 h5, h6, m1, s1, s3⟩

/-- Beside C147_narrow, C147_strands: the same with buffers of one byte. -/
example (kc : Kind) (kl : Nat → Kind) (n : Nat) : ∃ as w, Reach.Steps (fun _ => ⟨1, 1⟩) kc kl (n + 1) sampleHandler {} as w ∧
    (w.chain.link 0).a.gone = true ∧ w.server.io.delivered.length = sampleSaid.length ∧ w.server.exit = none := by
  obtain ⟨as, w, h, _, h1, _, h2, h3, _⟩ := C147_strands (c := fun _ => ⟨1, 1⟩) (kc := kc) (kl := kl) (n := n + 1)
    (fun _ _ => ⟨Nat.le_refl _, Nat.le_refl _⟩) samplePlan (by omega)
  exact ⟨as, w, h, h1, by rw [h2, List.length_map], h3⟩

/-- Beside C147_stays: the same when the client has sent all of that and exits before anything has been passed on. -/
example (kc : Kind) (kl : Nat → Kind) (n : Nat) : ∃ as w, Remote.Steps kc kl (n + 1) sampleHandler {} as w ∧
    (w.chain.link 0).a.gone = true ∧ (w.chain.link 0).a.io.accepted = sampleSaid ∧ w.server.exit = none := by
  obtain ⟨as, c, h, e⟩ := remote_says kc kl (n + 1) sampleHandler sampleSaid
  have hx : Remote.Step kc kl (n + 1) sampleHandler ⟨c, {}⟩ (.client .exit) _ := .client (.client (.exit (by rw [e]; rfl)))
  have h4 := remote_append h (.snoc (.nil _) hx)
  obtain ⟨hc, he⟩ := remote_chain h4
  have e1 : ((c.set 0 { c.link 0 with a := { (c.link 0).a with gone := true } }).link 0).a.io.accepted = sampleSaid := by
    rw [set_self]; simp only [e]; rfl
  have e2 : ((c.set 0 { c.link 0 with a := { (c.link 0).a with gone := true } }).link (n + 1)).b.io.accepted = [] := by
    simp only at he; rw [he]; rfl
  have b := (chain_back hc (by simp only [e2]; simp) 1 n (by omega)).1
  simp only [e2] at b
  refine ⟨_, _, h4, by simp only [set_self], e1, ?_⟩
  exact (C147_stays samplePlan rfl h4 (by rw [e1]; exact List.prefix_append _ _)
    (behind_unsaid samplePlan hc (by rw [e1]; exact List.prefix_refl _))
    (silent_writer (pair_inv (link_pair (chain_link hc n (by omega)))).2.1 (List.prefix_nil.1 b))).1

end
end Bsp
