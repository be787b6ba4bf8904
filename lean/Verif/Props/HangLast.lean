/-
C137, continued: a client that drops its connection when a single answer is missing.
-/
import Verif.Props.HangUp

namespace Bsp
open Frame Json Transport
open Link (Move LinkStep Side Quiet)
open Conn (Dbg reply)
open Session (Proc App onRecv onSent toSend kindOf)
open EndToEnd (World side)

section
variable [LawfulExt] [FloatText] [Dbg] {process : InitializeBuild → Option Value}
  {said : List Message} {early : List Request} {id : RequestId} {ip : InitializeBuild} {v : Value} {pre : List Message}

/-- The reader of the client has ended over the last answer: the server has written all answers, the client has taken
all of them from its input, and the server has nothing left to write. -/
theorem last_written (hp : Spec.Plan process said early id ip v pre) {kc ks : Kind} {w : World} {as : List EndToEnd.Ev}
    (h : EndToEnd.Steps kc ks process {} as w) (hg : w.client.gone = false) (hsaid : w.client.io.accepted <+: said)
    (he : w.client.io.reader.ended = true)
    (hn : w.client.io.delivered.length + 1 = early.length + 1 + (Spec.requests pre).length) :
    w.client.io.unread = [] ∧ w.client.io.arrived = w.server.io.out ∧
    ∀ r, w.server.io.writer = .writing r → r = [] := by
  obtain ⟨_, h2, m, used, h3, h4⟩ := hung_reader hp h hg hsaid he
  obtain ⟨hl, _⟩ := world_link h
  obtain ⟨_, p2, _, p4⟩ := pair_inv (link_pair hl)
  simp only [linkOf, side] at p2 p4
  have hacc := held_sent hp h hsaid
  have hlen := hacc.length_le
  rw [(plan_served hp).2] at hlen
  have ok : ∀ m ∈ w.server.io.accepted, Spec.Sayable m := fun m hm => (plan_answers hp m (hacc.subset hm)).1
  obtain ⟨t, ht⟩ := p4
  obtain ⟨t2, ht2⟩ := (C53_output p2).1
  have e : used ++ (w.client.io.unread ++ t ++ t2) = w.server.io.accepted.flatMap write := by
    rw [← ht2, ← ht, h3]; simp
  obtain ⟨n1, n2, f1, f2, f3⟩ := carries_written h4 (fun n hn => (ok n hn).carried.size) e
  have hn2 : n2 = [] := by
    have := congrArg List.length f1
    simp only [List.length_append, List.length_singleton] at this f3
    exact List.length_eq_zero_iff.1 (by omega)
  rw [hn2, List.append_nil] at f1
  rw [f1, f2] at e
  have e := List.append_cancel_left (e.trans (List.append_nil _).symm)
  simp only [List.append_eq_nil_iff] at e
  obtain ⟨⟨e1, e2⟩, e3⟩ := e
  refine ⟨e1, by rw [← ht, e2, List.append_nil], ?_⟩
  intro r hr
  have hw := writeInv p2
  simp only [WriteInv, hr] at hw
  obtain ⟨ms, m', sent, g1, g2, g3⟩ := hw
  rw [e3, List.append_nil, g3, g1, List.flatMap_append, List.flatMap_singleton, g2] at ht2
  have := List.append_cancel_left ht2
  exact (List.append_cancel_left ((List.append_nil sent).trans this)).symm

/-- What holds of the two after the reader of the client has ended over the last answer. -/
structure LastInv (kc : Kind) (w : World) : Prop where
  inS : w.server.io.inEnd = none ∨
    (w.server.io.inEnd = some false ∧ w.client.closed kc = true ∧ w.server.io.arrived = w.client.io.out)
  wS : w.server.io.writer ≠ .failed ∧ w.server.io.writer ≠ .panicked
  wC : w.client.io.writer ≠ .failed ∧ w.client.io.writer ≠ .panicked

theorem last_inv (hp : Spec.Plan process said early id ip v pre) {kc ks : Kind} {w : World} {as : List EndToEnd.Ev}
    (h : EndToEnd.Steps kc ks process {} as w) (hg : w.client.gone = false) (hsaid : w.client.io.accepted <+: said)
    (hc : w.client.closed kc = true)
    (hn : w.client.io.delivered.length + 1 = early.length + 1 + (Spec.requests pre).length) : LastInv kc w := by
  generalize hw : ({} : World) = w0 at h
  induction h with
  | nil => subst hw; simp [Side.closed, Reader.ended] at hc
  | @snoc as u a w' h1 hs ih =>
    subst hw
    have h' := EndToEnd.Steps.snoc h1 hs
    cases hs with
    | @client ev c hm =>
      have g := move_grows hm
      have hg0 : u.client.gone = false := by
        cases e : u.client.gone with
        | false => rfl
        | true => have := g.gone e; rw [hg] at this; cases this
      have hsaid0 := g.accepted.trans hsaid
      cases hc0 : u.client.closed kc with
      | false =>
        have hh := held hp h1 hc0 hsaid0
        obtain ⟨hl, _⟩ := world_link h1
        have hcs : (side u.server).closed ks = false := by simp [side, Side.closed, hh.alive, hh.readS]
        obtain ⟨i1, i2⟩ := (link_blame hl).1 hcs
        obtain ⟨i3, i4⟩ := (link_blame hl).2 hc0
        exact ⟨.inl i3, i4, open_writer hm i2 hcs⟩
      | true =>
        obtain ⟨he0, hw0⟩ := closed_ended (by simp [hg0]) hc0
        have hd : c.io.delivered = u.client.io.delivered := by
          cases hm with
          | own _ hst _ _ _ =>
            cases hst with
            | deliver m i5 => simp [i5, Reader.ended] at he0
            | read r i5 => simp [i5, Reader.ended] at he0
            | _ => rfl
          | arrive _ _ _ hst => cases hst; rfl
          | fin _ _ _ hst => cases hst; rfl
          | reset _ _ _ _ hst => cases hst; rfl
          | fails _ _ _ _ hst => cases hst; rfl
          | exit => rfl
        have ih := ih hg0 hsaid0 hc0 (by rw [← hd]; exact hn)
        refine ⟨?_, ih.wS, by rw [g.writer hw0]; exact ih.wC⟩
        rcases ih.inS with i1 | ⟨i1, _, i3⟩
        · exact .inl i1
        · exact .inr ⟨i1, hc, i3.trans (g.out hw0).symm⟩
    | @server a p hst hpe =>
      have ih := ih hg hsaid hc hn
      have he0 : u.client.io.reader.ended = true :=
        (closed_ended (fun e => absurd (hg.symm.trans e) (by simp)) hc).1
      obtain ⟨l1, l2, l3⟩ := last_written hp h1 hg hsaid he0 hn
      rcases (server_move hst hpe).2 with hm | ⟨ev, hm⟩
      · have : p.io = u.server.io := congrArg Side.io hm
        exact ⟨by rw [this]; exact ih.inS, by rw [this]; exact ih.wS, ih.wC⟩
      · have wS : p.io.writer ≠ .failed ∧ p.io.writer ≠ .panicked := by
          generalize hx : side p = x at hm
          have hx : p.io = x.io := congrArg Side.io hx
          rw [hx]
          cases hm with
          | own _ h1 _ _ h2 =>
            cases h1 with
            | writeFails b _ => exact absurd rfl h2
            | read r _ _ => cases r <;> exact ih.wS
            | accept => simp
            | write => simp
            | written => simp
            | close => simp
            | _ => exact ih.wS
          | arrive _ _ _ hst => cases hst; exact ih.wS
          | fin _ _ _ hst => cases hst; exact ih.wS
          | reset _ _ _ _ hst => cases hst; exact ih.wS
          | fails _ _ h3 h4 => exact absurd (l3 _ h3) h4
          | exit => exact ih.wS
        refine ⟨?_, wS, ih.wC⟩
        have g := move_grows hm
        rcases ih.inS with i1 | ⟨i1, i2, i3⟩
        · generalize hx : side p = x at hm
          have hx : p.io = x.io := congrArg Side.io hx
          rw [hx]
          cases hm with
          | own _ h1 h2 h3 _ =>
            cases h1 with
            | arrive bs => exact absurd rfl (h2 bs)
            | hangUp b => exact absurd rfl (h3 b)
            | read r _ _ => cases r <;> exact .inl i1
            | _ => exact .inl i1
          | arrive _ _ _ hst => cases hst; exact .inl i1
          | fin _ _ h3 hst => cases hst; exact .inr ⟨rfl, hc, h3⟩
          | reset _ _ _ h3 _ =>
            rcases h3 with h3 | h3
            · exact absurd l1 h3
            · exact absurd l2 h3
          | fails _ _ _ _ hst => cases hst; exact .inl i1
          | exit => exact .inl i1
        · have := g.inEnd false i1
          exact .inr ⟨this.1, i2, this.2.trans i3⟩

/-- C137: if exactly one answer was missing when the client dropped its connection, a socket, the server exits with
success, however the steps are scheduled: it has written all its answers, so that no write fails, and the client has
read all of them, so that the connection is not reset. -/
theorem C137_last (hp : Spec.Plan process said early id ip v pre) {ks : Kind} {w u : World}
    {as bs : List EndToEnd.Ev} (h : EndToEnd.Steps .socket ks process {} as w) (hg : w.client.gone = false)
    (hs : w.client.io.accepted = said) (hr : w.client.io.rxAlive = false) (ht : w.client.io.txAlive = false)
    (hn : w.client.io.delivered.length + 1 = early.length + 1 + (Spec.requests pre).length)
    (hu : EndToEnd.Steps .socket ks process w bs u) (hb : ∀ e, EndToEnd.Ev.client e ∈ bs → e.app = false)
    (hq : EndToEnd.Quiet .socket ks process u) : u.server.exit = some true := by
  obtain ⟨_, _, d⟩ := C137_decided hp h hg hs hr ht hu hb hq
  obtain ⟨dj, de, _⟩ := d (by omega)
  obtain ⟨b, hex⟩ := de rfl
  obtain ⟨k1, k2, k3, k4⟩ := world_keeps hu hb
  obtain ⟨_, kd⟩ := deaf_keeps hu hr
  have h' := world_append h hu
  have hg' := k1.trans hg
  have hs' : u.client.io.accepted = said := k2.trans hs
  have hsaid : u.client.io.accepted <+: said := by rw [hs']; exact List.prefix_refl _
  have he : u.client.io.reader.ended = true := by
    cases e : u.client.io.reader <;> simp [join, e] at dj <;> rfl
  have hw := quiet_client_writer hq hg' (k4.trans ht)
  have hc : u.client.closed .socket = true := by simp [Side.closed, he, hw]
  have inv := last_inv hp h' hg' hsaid hc (by rw [kd]; exact hn)
  obtain ⟨hl, bs', hss⟩ := world_link h'
  have hpair := link_pair hl
  obtain ⟨p1, p2, p3, _⟩ := pair_inv hpair
  simp only [linkOf, side] at p1 p2 p3
  have wC : u.client.io.writer = .done := by
    cases e : u.client.io.writer with
    | failed => exact absurd e inv.wC.1
    | panicked => exact absurd e inv.wC.2
    | done => rfl
    | _ => simp [e, Writer.ended] at hw
  have outC := written_all p1 (.inr wC)
  have okA : ∀ m ∈ u.client.io.accepted, Spec.Sayable m := fun m hm => hp.sayable m (hsaid.subset hm)
  have wrote := session_wrote hss inv.wS
  have hd : u.server.io.delivered <+: said.map Spec.heard := by rw [← hs']; exact C56_heard hpair okA
  have hd' : u.server.io.delivered <+: (said ++ [Message.notification .exit]).map Spec.heard := by
    rw [List.map_append]; exact hd.trans (List.prefix_append _ _)
  have nex : Message.notification .exit ∉ u.server.io.delivered := by
    intro hm
    obtain ⟨m, hm, he⟩ := List.mem_map.1 (hd.subset hm)
    rw [heard_exit he] at hm
    exact hp.noExit hm
  obtain ⟨s1, s2, _⟩ := plan_stays hp hd'
  obtain ⟨_, r, e1, e2⟩ := (mainInv hss).exits b hex
  -- the whole input of the server
  have whole : ∀ stop, Spec.Input u.server.io u.server.io.delivered stop →
      u.server.io.inEnd = some false ∧ u.server.io.delivered = said.map Spec.heard ∧ stop = .eof := by
    intro stop hi
    rcases inv.inS with i1 | ⟨i1, _, i3⟩
    · exfalso
      obtain ⟨t, ht⟩ := p3
      simp only [Spec.Input, i1] at hi
      have h5 := hi t false
      have h6 := hi (t ++ write (.notification .exit)) false
      rw [← List.append_assoc] at h6
      rw [ht, outC] at h5 h6
      rw [C13_heard_stream _ okA] at h5
      have h7 := C13_heard_stream (u.client.io.accepted ++ [.notification .exit]) (by
        intro m hm
        rcases List.mem_append.1 hm with hm | hm
        · exact okA m hm
        · rw [List.mem_singleton.1 hm]; exact exit_sayable)
      rw [List.flatMap_append, List.flatMap_singleton, h6, ← h5] at h7
      have := congrArg (fun x : List Message × Stop => x.1.length) h7
      simp at this
    · simp only [Spec.Input, i1, i3, outC] at hi
      rw [C13_heard_stream _ okA, hs'] at hi
      exact ⟨i1, (Prod.mk.inj hi).1.symm, (Prod.mk.inj hi).2.symm⟩
  have over : u.server.io.inEnd = some false ∧ u.server.io.delivered = said.map Spec.heard ∧ r = .ok () := by
    cases (mainInv hss).at' (no_fail hss wrote) with
    | rest h1 _ => exact absurd (h1.symm.trans e1) (s1 r)
    | sending h1 => rw [e1] at h1; cases h1
    | late h1 => exact absurd h1 s2
    | closed _ h2 _ h4 =>
      rcases h4 with h4 | ⟨stop, h4⟩
      · exact absurd h4 nex
      · obtain ⟨i1, i2, _⟩ := whole stop h4
        refine ⟨i1, i2, ?_⟩
        rw [i2, hp.heard, feed_session hp.refused hp.accepts (plan_pre hp).1, e1] at h2
        simpa [onRecv] using h2
  obtain ⟨o1, o2, rfl⟩ := over
  rcases e2 with ⟨e2, _⟩ | ⟨_, e3, rfl⟩
  · exact absurd rfl e2
  have hread : u.server.io.reader = .done := by
    cases e : u.server.io.reader with
    | done => rfl
    | reading => simp [join, e] at e3
    | sending m => simp [join, e] at e3
    | failed =>
      obtain ⟨_, stop, h4, h5⟩ := C55_error p2 e
      rw [(whole _ h5).2.2] at h4; exact h4.elim
    | panicked =>
      rcases C55_panic p2 e with ⟨_, m, used, h5, h6⟩ | ⟨_, stop, h4, h5⟩ | h4
      · exfalso
        obtain ⟨t, ht⟩ := p3
        rw [outC, h5, List.append_assoc] at ht
        have h7 := C13_heard_stream _ okA
        rw [← ht, readAll_carries h6, o2, hs'] at h7
        have := congrArg (fun x : List Message × Stop => x.1.length) h7
        simp at this
      · rw [(whole _ h5).2.2] at h4; exact h4.elim
      · cases (whole _ h4).2.2
  have hwr : u.server.io.writer = .done := by
    cases e : u.server.io.writer with
    | done => rfl
    | failed => exact absurd e inv.wS.1
    | panicked => exact absurd e inv.wS.2
    | _ => simp [join, hread, e] at e3
  rw [hex]
  simp [join, hread, hwr]

/-- The client receives one message at a time. -/
theorem delivered_between {kc ks : Kind} {w u : World} {bs : List EndToEnd.Ev}
    (h : EndToEnd.Steps kc ks process w bs u) {n : Nat} (h1 : w.client.io.delivered.length ≤ n)
    (h2 : n ≤ u.client.io.delivered.length) :
    ∃ cs x, EndToEnd.Steps kc ks process w cs x ∧ (∀ a ∈ cs, a ∈ bs) ∧ x.client.io.delivered.length = n := by
  induction h with
  | nil => exact ⟨[], _, .nil _, by simp, by omega⟩
  | @snoc as u a w' h3 hs ih =>
    by_cases h4 : n ≤ u.client.io.delivered.length
    · obtain ⟨cs, x, i1, i2, i3⟩ := ih h4
      exact ⟨cs, x, i1, fun a ha => List.mem_append_left _ (i2 a ha), i3⟩
    · refine ⟨_, _, .snoc h3 hs, fun _ h => h, ?_⟩
      have : w'.client.io.delivered.length ≤ u.client.io.delivered.length + 1 := by
        cases hs with
        | server => exact Nat.le_succ _
        | @client ev c hm =>
          cases hm with
          | own _ hst _ _ _ =>
            cases hst with
            | deliver m => simp
            | read r => cases r <;> exact Nat.le_succ _
            | _ => exact Nat.le_succ _
          | arrive _ _ _ hst => cases hst; exact Nat.le_succ _
          | fin _ _ _ hst => cases hst; exact Nat.le_succ _
          | reset _ _ _ _ hst => cases hst; exact Nat.le_succ _
          | fails _ _ _ _ hst => cases hst; exact Nat.le_succ _
          | exit => exact Nat.le_succ _
      omega

end

/-! ### Concrete cases -/

section
attribute [local instance] Ext.sample FloatText.sample Dbg.sample

/-- Beside C137: a client that receives all the answers but one and then drops its connection: the server exits with
success, and `join` of the client panics. -/
example (ks : Kind) : ∃ as w, EndToEnd.Steps .socket ks sampleHandler {} as w ∧ w.client.gone = false ∧
    join .socket w.client.io = .panic (utf8 "reader panicked!\n".toList) ∧ w.server.exit = some true := by
  obtain ⟨as, h⟩ := says_run .socket ks sampleHandler sampleSaid
  obtain ⟨bs, u, h1, h2, h3⟩ := world_settles .socket ks sampleHandler _
  obtain ⟨k1, k2, k3, k4⟩ := world_keeps h1 (fun e he => h3 _ he)
  obtain ⟨ms, m1, m2⟩ := C97_rest samplePlan (world_append h h1) k1 k3 k2 h2
  have hl := (congrArg List.length m2).trans ((List.length_map _).trans (served_length m1))
  obtain ⟨cs, x, x1, x2, x3⟩ := delivered_between h1 (Nat.zero_le _) (Nat.le_trans (Nat.pred_le _) (Nat.le_of_eq hl.symm))
  obtain ⟨j1, j2, j3, j4⟩ := world_keeps x1 (fun e he => h3 _ (x2 _ he))
  have h0 := EndToEnd.Steps.snoc (EndToEnd.Steps.snoc (world_append h x1)
    (.client (.own j1 (.dropRx _) (by simp) (by simp) (by simp))))
    (.client (.own j1 (.dropTx _) (by simp) (by simp) (by simp)))
  obtain ⟨ds, y, e1, e2, e3⟩ := world_settles .socket ks sampleHandler _
  have y1 := (world_keeps e1 (fun e he => e3 _ he)).1
  have hn := (congrArg Nat.succ x3).trans rfl
  have l := C137_last samplePlan h0 j1 j2 rfl rfl hn e1 (fun e he => e3 _ he) e2
  obtain ⟨_, _, d⟩ := C137_decided samplePlan h0 j1 j2 rfl rfl e1 (fun e he => e3 _ he) e2
  exact ⟨_, y, world_append h0 e1, y1.trans j1, (d (by rw [x3]; decide)).1, l⟩

end
end Bsp
