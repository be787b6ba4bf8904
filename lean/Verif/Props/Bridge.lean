/-
C141: a program that passes messages on between two connections is not noticed.
-/
import Verif.Bridge
import Verif.Props.Again
import Verif.Props.Link

set_option linter.unusedSectionVars false

namespace Bsp
open Frame Transport Link
open Bridge (Hand Carry Who Next)

/-! ### Passing on what has been heard -/

section
variable [LawfulExt] [FloatText]

theorem relayed_map {ms : List Message} (h : ∀ m ∈ ms, Spec.Sayable m) :
    (∀ m ∈ ms.map Spec.heard, Spec.Sayable m) ∧ (ms.map Spec.heard).map Spec.heard = ms.map Spec.heard := by
  constructor
  · intro m hm
    obtain ⟨n, hn, rfl⟩ := List.mem_map.1 hm
    exact (C83_heard (h n hn)).1
  · rw [List.map_map]
    exact List.map_congr_left (fun m hm => (C83_heard (h m hm)).2.1)

/-! ### The two links of a relay -/

theorem carry_src {ks kd : Kind} {s d s' d' : Side} {h h' : Hand} (hc : Carry ks kd s h d s' h' d') (k' : Kind) (y : Side)
    (hg : s.gone = false) : s' = s ∨ ∃ ev, Move ks k' s y ev s' := by
  cases hc with
  | recv h1 => exact .inr ⟨_, .own hg h1 (by simp) (by simp) (by simp)⟩
  | dropRx h1 => exact .inr ⟨_, .own hg (.dropRx _) (by simp) (by simp) (by simp)⟩
  | _ => exact .inl rfl

theorem carry_dst {ks kd : Kind} {s d s' d' : Side} {h h' : Hand} (hc : Carry ks kd s h d s' h' d') (k' : Kind) (y : Side)
    (hg : d.gone = false) : d' = d ∨ ∃ ev, Move kd k' d y ev d' := by
  cases hc with
  | send h1 => exact .inr ⟨_, .own hg h1 (by simp) (by simp) (by simp)⟩
  | dropTx h1 => exact .inr ⟨_, .own hg (.dropTx _) (by simp) (by simp) (by simp)⟩
  | _ => exact .inl rfl

/-- A step of the relay is at most one step of each link. -/
theorem bridge_links {kc kl ks : Kind} {w w' : Bridge.World} {x : Who} (h : Next kc kl ks w x w') :
    (w'.left = w.left ∨ ∃ ev, LinkStep kc kl w.left ev w'.left) ∧
    (w'.right = w.right ∨ ∃ ev, LinkStep .socket ks w.right ev w'.right) := by
  cases h with
  | client h1 => exact ⟨.inr ⟨_, .left h1⟩, .inl rfl⟩
  | server h1 => exact ⟨.inl rfl, .inr ⟨_, .right h1⟩⟩
  | near h1 _ _ => exact ⟨.inr ⟨_, .right h1⟩, .inl rfl⟩
  | far h1 _ _ => exact ⟨.inl rfl, .inr ⟨_, .left h1⟩⟩
  | up ha h1 =>
    constructor
    · rcases carry_src h1 kc w.left.a ha.1 with rfl | ⟨ev, h2⟩
      · exact .inl rfl
      · exact .inr ⟨ev, .right h2⟩
    · rcases carry_dst h1 ks w.right.b ha.2 with rfl | ⟨ev, h2⟩
      · exact .inl rfl
      · exact .inr ⟨ev, .left h2⟩
  | down ha h1 =>
    constructor
    · rcases carry_dst h1 kc w.left.a ha.1 with rfl | ⟨ev, h2⟩
      · exact .inl rfl
      · exact .inr ⟨ev, .right h2⟩
    · rcases carry_src h1 ks w.right.b ha.2 with rfl | ⟨ev, h2⟩
      · exact .inl rfl
      · exact .inr ⟨ev, .left h2⟩
  | finish ha =>
    exact ⟨.inr ⟨_, .right (.exit ha.1)⟩, .inr ⟨_, .left (.exit ha.2)⟩⟩

theorem bridge_left {kc kl ks : Kind} {w : Bridge.World} (h : Bridge.Reachable kc kl ks w) : Link.Reachable kc kl w.left := by
  induction h with
  | start => exact .start
  | step _ hs ih =>
    rcases (bridge_links hs).1 with h1 | ⟨_, h1⟩
    · rw [h1]; exact ih
    · exact .step ih h1

theorem bridge_right {kc kl ks : Kind} {w : Bridge.World} (h : Bridge.Reachable kc kl ks w) :
    Link.Reachable .socket ks w.right := by
  induction h with
  | start => exact .start
  | step _ hs ih =>
    rcases (bridge_links hs).2 with h1 | ⟨_, h1⟩
    · rw [h1]; exact ih
    · exact .step ih h1

/-- What a thread of the relay has taken from `s` and given to `d`. Proof helper for bsp-server/src/lib.rs:37-40. -/
def HandInv (s : Side) (h : Hand) (d : Side) : Prop :=
  (d.io.accepted ++ h.held <+: s.io.delivered ∧ (h ≠ .ended → s.io.delivered = d.io.accepted ++ h.held)) ∧
  (s.io.rxAlive = false ∨ d.io.txAlive = false → h = .ended)

theorem carry_inv {ks kd : Kind} {s d s' d' : Side} {h h' : Hand} (hc : Carry ks kd s h d s' h' d')
    (hi : HandInv s h d) : HandInv s' h' d' := by
  obtain ⟨⟨h1, h2⟩, h3⟩ := hi
  cases hc with
  | recv hs =>
    cases hs with
    | deliver _ _ _ =>
      have := h2 (by simp)
      refine ⟨⟨?_, fun _ => ?_⟩, fun hx => ?_⟩
      · simp [this, Hand.held]
      · simp [this, Hand.held]
      · cases h3 hx
  | closed _ => exact ⟨⟨h1, fun hx => absurd rfl hx⟩, fun _ => rfl⟩
  | send hs =>
    cases hs with
    | accept _ _ _ =>
      have := h2 (by simp)
      refine ⟨⟨?_, fun _ => ?_⟩, fun hx => ?_⟩
      · simp [this, Hand.held]
      · simp [this, Hand.held]
      · cases h3 hx
  | unsent _ =>
    exact ⟨⟨((List.append_nil _).symm ▸ List.prefix_append _ _ : _ <+: _).trans h1, fun hx => absurd rfl hx⟩, fun _ => rfl⟩
  | dropRx _ => exact ⟨⟨h1, fun hx => absurd rfl hx⟩, fun _ => rfl⟩
  | dropTx _ => exact ⟨⟨h1, fun hx => absurd rfl hx⟩, fun _ => rfl⟩

/-- A step of the I/O threads or the network leaves alone what the program has done. -/
theorem move_idle {k k' : Kind} {x y x' : Side} {act : Act} (h : Move k k' x y (.act act) x') (ha : Ev.app (.act act) = false)
    (hd : ∀ m, act ≠ .deliver m) : x'.io.delivered = x.io.delivered := by
  have key : ∀ {s s' : State}, Step k s act s' → s'.delivered = s.delivered := by
    intro s s' hs
    cases hs with
    | deliver m _ _ => exact absurd rfl (hd m)
    | read r _ _ => cases r <;> rfl
    | _ => rfl
  cases h with
  | own _ h1 _ _ _ => exact key h1
  | arrive _ _ _ h1 => exact key h1
  | fin _ _ _ h1 => exact key h1
  | reset _ _ _ _ h1 => exact key h1
  | fails _ _ _ _ h1 => exact key h1

theorem handInv_of {s s' d d' : Side} {h : Hand} (hi : HandInv s h d) (h1 : s'.io.delivered = s.io.delivered)
    (h2 : s'.io.rxAlive = s.io.rxAlive) (h3 : d'.io.accepted = d.io.accepted) (h4 : d'.io.txAlive = d.io.txAlive) :
    HandInv s' h d' := by
  unfold HandInv
  rw [h1, h2, h3, h4]
  exact hi

/-- A thread that carries from `s` to `d` leaves alone what is sent to `s` and what is received from `d`. -/
theorem carry_other {ks kd : Kind} {s d s' d' : Side} {h h' : Hand} (hc : Carry ks kd s h d s' h' d') :
    (s'.io.accepted = s.io.accepted ∧ s'.io.txAlive = s.io.txAlive) ∧
    (d'.io.delivered = d.io.delivered ∧ d'.io.rxAlive = d.io.rxAlive) := by
  cases hc with
  | recv hs => cases hs; exact ⟨⟨rfl, rfl⟩, rfl, rfl⟩
  | send hs => cases hs; exact ⟨⟨rfl, rfl⟩, rfl, rfl⟩
  | _ => exact ⟨⟨rfl, rfl⟩, rfl, rfl⟩

/-- What holds of the two threads of the relay, and of its exit. Proof helper for bsp-server/src/lib.rs:37-40. -/
structure BridgeInv (w : Bridge.World) : Prop where
  up : HandInv w.left.b w.up w.right.a
  down : HandInv w.right.a w.down w.left.b
  gone : w.left.b.gone = w.right.a.gone
  drops : w.left.b.gone = true → (w.left.b.io.rxAlive = false ∧ w.left.b.io.txAlive = false) ∧
    w.right.a.io.rxAlive = false ∧ w.right.a.io.txAlive = false

theorem carry_gone {ks kd : Kind} {s d s' d' : Side} {h h' : Hand} (hc : Carry ks kd s h d s' h' d') :
    s'.gone = s.gone ∧ d'.gone = d.gone := by
  cases hc <;> exact ⟨rfl, rfl⟩

theorem bridgeInv {kc kl ks : Kind} {w : Bridge.World} (h : Bridge.Reachable kc kl ks w) : BridgeInv w := by
  induction h with
  | start => exact ⟨⟨⟨by simp [Hand.held], by simp [Hand.held]⟩, by simp⟩, ⟨⟨by simp [Hand.held], by simp [Hand.held]⟩, by simp⟩, rfl, by simp⟩
  | step _ hs ih =>
    obtain ⟨hu, hd, hg, hx⟩ := ih
    cases hs with
    | client h1 => exact ⟨hu, hd, hg, hx⟩
    | server h1 => exact ⟨hu, hd, hg, hx⟩
    | near h1 h2 h3 =>
      obtain ⟨e1, e2, e3, e4⟩ := move_keeps h1 h2
      refine ⟨handInv_of hu (move_idle h1 h2 h3) e3 rfl rfl, handInv_of hd rfl rfl e2 e4, by simpa [e1] using hg, ?_⟩
      simp only [e1, e3, e4]; exact hx
    | far h1 h2 h3 =>
      obtain ⟨e1, e2, e3, e4⟩ := move_keeps h1 h2
      refine ⟨handInv_of hu rfl rfl e2 e4, handInv_of hd (move_idle h1 h2 h3) e3 rfl rfl, by simpa [e1] using hg, ?_⟩
      simp only [e3, e4]; exact hx
    | up ha h1 =>
      obtain ⟨⟨e1, e2⟩, e3, e4⟩ := carry_other h1
      obtain ⟨g1, g2⟩ := carry_gone h1
      exact ⟨carry_inv h1 hu, handInv_of hd e3 e4 e1 e2, by simpa [g1, g2] using hg, by simp [g1, ha.1]⟩
    | down ha h1 =>
      obtain ⟨⟨e1, e2⟩, e3, e4⟩ := carry_other h1
      obtain ⟨g1, g2⟩ := carry_gone h1
      exact ⟨handInv_of hu e3 e4 e1 e2, carry_inv h1 hd, by simpa [g1, g2] using hg, by simp [g2, ha.1]⟩
    | finish ha _ _ x1 x2 x3 x4 => exact ⟨hu, hd, rfl, fun _ => ⟨⟨x1, x2⟩, x3, x4⟩⟩

/-- C141: whatever the client, the server, the relay and the network do, and whatever fails, what the server has
received is a beginning of what is heard of what the client has sent, in order, nothing twice and nothing made up, and
the same the other way round. -/
theorem C141_order {kc kl ks : Kind} {w : Bridge.World} (h : Bridge.Reachable kc kl ks w) :
    ((∀ m ∈ w.left.a.io.accepted, Spec.Sayable m) →
      w.right.b.io.delivered <+: w.left.a.io.accepted.map Spec.heard) ∧
    ((∀ m ∈ w.right.b.io.accepted, Spec.Sayable m) →
      w.left.a.io.delivered <+: w.right.b.io.accepted.map Spec.heard) := by
  have hi := bridgeInv h
  have hl := link_pair (bridge_left h)
  have hr := link_pair (bridge_right h)
  have key : ∀ {sent got passed : List Message}, (∀ m ∈ sent, Spec.Sayable m) → got <+: sent.map Spec.heard →
      passed <+: got → (∀ m ∈ passed, Spec.Sayable m) ∧ passed.map Spec.heard <+: sent.map Spec.heard := by
    intro sent got passed hs h1 h2
    obtain ⟨e1, e2⟩ := relayed_map hs
    refine ⟨fun m hm => e1 m ((h2.trans h1).subset hm), ?_⟩
    rw [← e2]
    exact (h2.trans h1).map _
  constructor
  · intro hs
    have h1 := C56_heard hl (fun m hm => hs m hm)
    obtain ⟨h2, h3⟩ := key hs h1 ((List.prefix_append _ _).trans hi.up.1.1)
    exact (C56_heard hr h2).trans h3
  · intro hs
    have h1 := C56_heard (pair_swap hr) (fun m hm => hs m hm)
    obtain ⟨h2, h3⟩ := key hs h1 ((List.prefix_append _ _).trans hi.down.1.1)
    exact (C56_heard (pair_swap hl) h2).trans h3

/-! ### Leaving through a relay -/

/-- A client that sends the messages `pre` and then exit, and nothing more, and goes on receiving; a server
that sends no exit, and receives at least up to exit; all messages can be carried and are read back.  The
client has not exited, and the server does so only after both its I/O threads have ended (after `join`).
Specification about bsp-server/src/lib.rs:14-35, transporter.rs:36-38, 56-58. -/
structure Spec.Passing (pre : List Message) (w : Bridge.World) : Prop where
  gone : w.left.a.gone = false ∧
    (w.right.b.gone = true → w.right.b.io.reader.ended = true ∧ w.right.b.io.writer.ended = true)
  okA : ∀ m ∈ w.left.a.io.accepted, Spec.Sayable m
  okB : ∀ m ∈ w.right.b.io.accepted, Spec.Sayable m
  before : Message.notification .exit ∉ pre
  sentA : w.left.a.io.accepted <+: pre ++ [.notification .exit]
  sentB : Message.notification .exit ∉ w.right.b.io.accepted
  rxA : w.left.a.io.rxAlive = true
  rxB : w.right.b.io.rxAlive = true ∨ Message.notification .exit ∈ w.right.b.io.delivered

/-- The two ends: only steps of the client and the server change them. -/
theorem bridge_ends {kc kl ks : Kind} {w w' : Bridge.World} {x : Who} (h : Next kc kl ks w x w') :
    (w'.left.a = w.left.a ∨ ∃ ev, Move kc kl w.left.a w.left.b ev w'.left.a) ∧
    (w'.right.b = w.right.b ∨ ∃ ev, Move ks .socket w.right.b w.right.a ev w'.right.b) := by
  cases h with
  | client h1 => exact ⟨.inr ⟨_, h1⟩, .inl rfl⟩
  | server h1 => exact ⟨.inl rfl, .inr ⟨_, h1⟩⟩
  | _ => exact ⟨.inl rfl, .inl rfl⟩

theorem move_awake {k k' : Kind} {x y x' : Side} {ev : Ev} (h : Move k k' x y ev x') : x.gone = false := by
  cases h <;> assumption

/-- A step back at the two ends. -/
theorem passing_back {k1 k2 k3 k4 : Kind} {pre : List Message} {w w' : Bridge.World} {y z : Side}
    (ha : w'.left.a = w.left.a ∨ ∃ ev, Move k1 k2 w.left.a y ev w'.left.a)
    (hb : w'.right.b = w.right.b ∨ ∃ ev, Move k3 k4 w.right.b z ev w'.right.b)
    (h : Spec.Passing pre w') : Spec.Passing pre w := by
  have g1 : Grows w.left.a w'.left.a := by
    rcases ha with e | ⟨_, hm⟩
    · rw [e]; exact grows_refl _
    · exact move_grows hm
  have g2 : Grows w.right.b w'.right.b := by
    rcases hb with e | ⟨_, hm⟩
    · rw [e]; exact grows_refl _
    · exact move_grows hm
  refine ⟨⟨?_, ?_⟩, fun m hm => h.okA m (g1.accepted.subset hm), fun m hm => h.okB m (g2.accepted.subset hm),
    h.before, g1.accepted.trans h.sentA, fun hm => h.sentB (g2.accepted.subset hm), g1.rx h.rxA, ?_⟩
  · cases e : w.left.a.gone
    · rfl
    · have := g1.gone e; rw [h.gone.1] at this; cases this
  · intro e
    have h1 := h.gone.2 (g2.gone e)
    rcases hb with e1 | ⟨_, hm⟩
    · rw [e1] at h1; exact h1
    · have := move_awake hm
      rw [e] at this; cases this
  · rcases h.rxB with h1 | h1
    · exact .inl (g2.rx h1)
    · rcases hb with e1 | ⟨_, hm⟩
      · rw [e1] at h1; exact .inr h1
      · rcases move_step hm with ⟨act, _, h2, _⟩ | ⟨_, h2⟩
        · by_cases hx : w.right.b.io.rxAlive = true
          · exact .inl hx
          · right
            rw [← step_no_rx h2 (by simpa using hx)]
            exact h1
        · exact .inr (by simpa [h2] using h1)

theorem passing_before {kc kl ks : Kind} {pre : List Message} {w w' : Bridge.World} {x : Who} (hs : Next kc kl ks w x w')
    (h : Spec.Passing pre w') : Spec.Passing pre w :=
  passing_back (bridge_ends hs).1 (bridge_ends hs).2 h

/-- The relay's second connection as if its receiver had never been dropped and the relay never exited.
Proof helper for bsp-server/src/transporter.rs:47-80. -/
def keptSide (x : Side) : Side := ⟨{ x.io with rxAlive := true }, false⟩

/-- The second link with the relay's side so. Proof helper for bsp-server/src/transporter.rs:47-80. -/
def keptLink (l : Link) : Link := ⟨keptSide l.a, l.b⟩

theorem move_other {k k' : Kind} {x y y' x' : Side} {ev : Ev} (h : Move k k' x y ev x') (h1 : y'.io.out = y.io.out)
    (h2 : y'.io.unread = y.io.unread) (h3 : y'.io.arrived = y.io.arrived) (h4 : y'.closed k' = y.closed k') :
    Move k k' x y' ev x' := by
  cases h with
  | own a b c d e => exact .own a b c d e
  | arrive a b c d => exact .arrive a b (by rw [h1]; exact c) d
  | fin a b c d => exact .fin a (by rw [h4]; exact b) (by rw [h1]; exact c) d
  | reset a b c d e => exact .reset a (by rw [h4]; exact b) c (by rw [h2, h3]; exact d) e
  | fails a b c d e => exact .fails a (by rw [h4]; exact b) c d e
  | exit a => exact .exit a

theorem step_kept {k : Kind} {s s' : State} {a : Act} (h : Step k s a s') (h1 : a ≠ .dropRx) (h2 : a ≠ .undeliverable) :
    Step k { s with rxAlive := true } a { s' with rxAlive := true } := by
  cases h with
  | arrive bs e => exact .arrive { s with rxAlive := true } bs e
  | hangUp b e => exact .hangUp { s with rxAlive := true } b e
  | read r e1 e2 =>
    have := Step.read (k := k) { s with rxAlive := true } r e1 e2
    cases r <;> exact this
  | deliver m e1 e2 => exact .deliver { s with rxAlive := true } m e1 rfl
  | undeliverable m e1 e2 => exact absurd rfl h2
  | dropRx => exact absurd rfl h1
  | accept m e1 e2 => exact .accept { s with rxAlive := true } m e1 e2
  | write x y e1 e2 => exact .write { s with rxAlive := true } x y e1 e2
  | written e => exact .written { s with rxAlive := true } e
  | writeFails b e => exact .writeFails { s with rxAlive := true } b e
  | dropTx => exact .dropTx { s with rxAlive := true }
  | close e1 e2 => exact .close { s with rxAlive := true } e1 e2

theorem move_kept {k k' : Kind} {x y x' : Side} {act : Act} (h : Move k k' x y (.act act) x') (h1 : act ≠ .dropRx)
    (h2 : act ≠ .undeliverable) : Move k k' (keptSide x) y (.act act) (keptSide x') := by
  cases h with
  | own a b c d e =>
    have := Move.own (k := k) (k' := k') (x := keptSide x) (y := y) rfl (step_kept b h1 h2) c d e
    exact this
  | arrive a b c d => exact Move.arrive (k := k) (k' := k') (x := keptSide x) (y := y) rfl b c (step_kept d h1 h2)
  | fin a b c d => exact Move.fin (k := k) (k' := k') (x := keptSide x) (y := y) rfl b c (step_kept d h1 h2)
  | reset a b c d e => exact Move.reset (k := k) (k' := k') (x := keptSide x) (y := y) rfl b c d (step_kept e h1 h2)
  | fails a b c d e => exact Move.fails (k := k) (k' := k') (x := keptSide x) (y := y) rfl b c d (step_kept e h1 h2)

/-- What holds while client and server leave through the relay: both links are leaving, nothing has been lost,
and the relay's threads have ended only at the end of what they read. Proof helper for bsp-server/src/transporter.rs:14-80. -/
structure PassInv (kc kl ks : Kind) (pre : List Message) (w : Bridge.World) : Prop where
  right : Link.Reachable .socket ks (keptLink w.right)
  leaveL : Spec.Leaving pre w.left
  leaveR : Spec.Leaving (pre.map Spec.heard) (keptLink w.right)
  up : w.left.b.io.delivered = w.right.a.io.accepted ++ w.up.held
  down : w.right.a.io.delivered = w.left.b.io.accepted ++ w.down.held
  upEnd : w.up = .ended → w.left.b.io.reader.ended = true
  downEnd : w.down = .ended → w.right.a.io.reader.ended = true
  gone : w.left.b.gone = true → (w.left.b.io.reader.ended = true ∧ w.left.b.io.writer.ended = true) ∧
    w.right.a.io.reader.ended = true ∧ w.right.a.io.writer.ended = true

/-- Both links leave, as soon as the relay's first receiver is there or has got exit. -/
theorem passing_leaves {kc kl ks : Kind} {pre : List Message} {w : Bridge.World} (h : Bridge.Reachable kc kl ks w)
    (hp : Spec.Passing pre w)
    (hg : w.left.b.gone = true → w.left.b.io.reader.ended = true ∧ w.left.b.io.writer.ended = true)
    (hx : w.left.b.io.rxAlive = true ∨ Message.notification .exit ∈ w.left.b.io.delivered) :
    Spec.Leaving pre w.left ∧ Spec.Leaving (pre.map Spec.heard) (keptLink w.right) := by
  have hi := bridgeInv h
  have h1 := C56_heard (link_pair (bridge_left h)) (fun m hm => hp.okA m hm)
  have h2 := C56_heard (pair_swap (link_pair (bridge_right h))) (fun m hm => hp.okB m hm)
  have u := ((List.prefix_append _ _).trans hi.up.1.1).trans h1
  have d := ((List.prefix_append _ _).trans hi.down.1.1).trans h2
  constructor
  · refine ⟨⟨hp.gone.1, hg⟩, fun m hm => hp.okA m hm, fun m hm => (relayed_map hp.okB).1 m (d.subset hm), hp.before,
      hp.sentA, fun hm => ?_, hp.rxA, hx⟩
    obtain ⟨n, hn, he⟩ := List.mem_map.1 (d.subset hm)
    rw [heard_exit he] at hn
    exact hp.sentB hn
  · refine ⟨⟨rfl, hp.gone.2⟩, fun m hm => (relayed_map hp.okA).1 m (u.subset hm), fun m hm => hp.okB m hm, fun hm => ?_,
      ?_, hp.sentB, rfl, hp.rxB⟩
    · obtain ⟨n, hn, he⟩ := List.mem_map.1 hm
      rw [heard_exit he] at hn
      exact hp.before hn
    · have := u.trans (hp.sentA.map Spec.heard)
      rw [List.map_append] at this
      exact this

/-- A thread of the relay whose source has its end, and whose destination can be written to. -/
theorem carry_ends {ks kd : Kind} {s d s' d' : Side} {h h' : Hand} (hc : Carry ks kd s h d s' h' d')
    (hd : Transport.Reachable kd d.io) (hw : d.io.writer ≠ .failed ∧ d.io.writer ≠ .panicked) (hi : HandInv s h d)
    (he : h = .ended → s.io.reader.ended = true) (hf : s.io.delivered = d.io.accepted ++ h.held) :
    (h' = .ended → s'.io.reader.ended = true) ∧ s'.io.delivered = d'.io.accepted ++ h'.held := by
  cases hc with
  | recv hs => cases hs; exact ⟨by simp, by simpa [Hand.held] using hf⟩
  | closed h1 => exact ⟨fun _ => h1, hf⟩
  | send hs => cases hs; exact ⟨by simp, by simpa [Hand.held] using hf⟩
  | unsent h1 =>
    exfalso
    have : d.io.writer = .done := by
      cases e : d.io.writer with
      | done => rfl
      | failed => exact absurd e hw.1
      | panicked => exact absurd e hw.2
      | _ => simp [e, Writer.ended] at h1
    cases hi.2 (.inr (C54_drained hd this).1)
  | dropRx h1 => exact ⟨he, hf⟩
  | dropTx h1 => exact ⟨he, hf⟩

theorem passInv {kc kl ks : Kind} {pre : List Message} {w : Bridge.World} (h : Bridge.Reachable kc kl ks w)
    (hp : Spec.Passing pre w) : PassInv kc kl ks pre w := by
  induction h with
  | start =>
    obtain ⟨h1, h2⟩ := passing_leaves (kc := kc) (kl := kl) (ks := ks) .start hp (by simp) (.inl rfl)
    exact ⟨.start, h1, h2, rfl, rfl, by simp, by simp, by simp⟩
  | @step w x w' hr hs ih =>
    have ih := ih (passing_before hs hp)
    have hi := bridgeInv hr
    have hi' := bridgeInv (.step hr hs)
    have lL := leaveInv (bridge_left hr) ih.leaveL
    have lR := leaveInv ih.right ih.leaveR
    obtain ⟨_, rL⟩ := leave_reader (bridge_left hr) ih.leaveL lL
    obtain ⟨rR, _⟩ := leave_reader ih.right ih.leaveR lR
    obtain ⟨_, pL, _, _⟩ := pair_inv (link_pair (bridge_left hr))
    obtain ⟨pR, _, _, _⟩ := pair_inv (link_pair (bridge_right hr))
    have rest : (w'.left.b.gone = true → (w'.left.b.io.reader.ended = true ∧ w'.left.b.io.writer.ended = true) ∧
          w'.right.a.io.reader.ended = true ∧ w'.right.a.io.writer.ended = true) ∧
        (w'.left.b.io.rxAlive = true ∨ Message.notification .exit ∈ w'.left.b.io.delivered) ∧
        (w'.left.b.io.delivered = w'.right.a.io.accepted ++ w'.up.held ∧
          w'.right.a.io.delivered = w'.left.b.io.accepted ++ w'.down.held) ∧
        (w'.up = .ended → w'.left.b.io.reader.ended = true) ∧ (w'.down = .ended → w'.right.a.io.reader.ended = true) ∧
        Link.Reachable .socket ks (keptLink w'.right) := by
      have notGone : ∀ {p : Prop}, w.left.b.gone = false → w.left.b.gone = true → p := by
        intro p h1 h2; rw [h1] at h2; cases h2
      cases hs with
      | client h1 => exact ⟨ih.gone, ih.leaveL.rxB, ⟨ih.up, ih.down⟩, ih.upEnd, ih.downEnd, ih.right⟩
      | server h1 =>
        refine ⟨ih.gone, ih.leaveL.rxB, ⟨ih.up, ih.down⟩, ih.upEnd, ih.downEnd, .step ih.right (.right (move_other h1 rfl rfl rfl ?_))⟩
        simp only [keptLink, keptSide, Side.closed]
        cases e : w.right.a.gone with
        | false => rfl
        | true =>
          rw [← hi.gone] at e
          simp [(ih.gone e).2]
      | near h1 h2 h3 =>
        obtain ⟨e1, e2, e3, e4⟩ := move_keeps h1 h2
        have hd := move_idle h1 h2 h3
        have g := move_grows h1
        have hg : w.left.b.gone = false := by cases h1 <;> assumption
        refine ⟨fun e => notGone hg (e1 ▸ e), ?_, ⟨?_, ?_⟩, fun e => ?_, ih.downEnd, ih.right⟩
        · simp only [e3, hd]; exact ih.leaveL.rxB
        · simp only [hd]; exact ih.up
        · simp only [e2]; exact ih.down
        · simp only [g.reader (ih.upEnd e)]; exact ih.upEnd e
      | far h1 h2 h3 =>
        rename_i act a
        obtain ⟨e1, e2, e3, e4⟩ := move_keeps h1 h2
        have hd := move_idle h1 h2 h3
        have g := move_grows h1
        have hg : w.right.a.gone = false := by cases h1 <;> assumption
        refine ⟨fun e => notGone (hi.gone.trans hg) e, ih.leaveL.rxB, ⟨?_, ?_⟩, ih.upEnd, fun e => ?_, ?_⟩
        · simp only [e2]; exact ih.up
        · simp only [hd]; exact ih.down
        · simp only [g.reader (ih.downEnd e)]; exact ih.downEnd e
        · have h4 : act ≠ .dropRx := by rintro rfl; cases h2
          have h5 : act ≠ .undeliverable := by
            rintro rfl
            cases h1 with
            | own _ hs _ _ _ =>
              cases hs with
              | undeliverable m q1 q2 =>
                have := ih.downEnd (hi.down.2 (.inl q2))
                rw [q1] at this; cases this
          exact .step ih.right (.left (move_kept h1 h4 h5))
      | up ha h1 =>
        obtain ⟨⟨e1, e2⟩, e3, e4⟩ := carry_other h1
        obtain ⟨g1, g2⟩ := carry_gone h1
        obtain ⟨c1, c2⟩ := carry_ends h1 pR lR.wA hi.up ih.upEnd ih.up
        refine ⟨fun e => notGone ha.1 (g1 ▸ e), ?_, ⟨c2, ?_⟩, c1, fun e => ?_, ?_⟩
        · rcases ih.leaveL.rxB with h2 | h2
          · generalize hu : w.up = h0 at h1
            cases h1 with
            | recv hs => cases hs; exact .inl h2
            | dropRx _ => exact .inr (rL (ih.upEnd hu)).2
            | _ => exact .inl h2
          · right
            rcases carry_src h1 kc w.left.a ha.1 with h3 | ⟨ev, h3⟩
            · rw [h3]; exact h2
            · exact (move_grows h3).delivered.subset h2
        · rw [e3, e1]; exact ih.down
        · rcases carry_dst h1 ks w.right.b ha.2 with h3 | ⟨ev, h3⟩
          · rw [h3]; exact ih.downEnd e
          · rw [(move_grows h3).reader (ih.downEnd e)]; exact ih.downEnd e
        · generalize hu : w.up = h0 at h1
          cases h1 with
          | send hs =>
            exact .step ih.right (.left (move_kept (.own ha.2 hs (by simp) (by simp) (by simp)) (by simp) (by simp)))
          | dropTx _ =>
            exact .step ih.right (.left (move_kept (.own ha.2 (.dropTx _) (by simp) (by simp) (by simp)) (by simp) (by simp)))
          | _ => exact ih.right
      | down ha h1 =>
        obtain ⟨⟨e1, e2⟩, e3, e4⟩ := carry_other h1
        obtain ⟨g1, g2⟩ := carry_gone h1
        obtain ⟨c1, c2⟩ := carry_ends h1 pL lL.wB hi.down ih.downEnd ih.down
        refine ⟨fun e => notGone ha.1 (g2 ▸ e), ?_, ⟨?_, c2⟩, fun e => ?_, c1, ?_⟩
        · rw [e3, e4]; exact ih.leaveL.rxB
        · rw [e3, e1]; exact ih.up
        · rcases carry_dst h1 kc w.left.a ha.1 with h3 | ⟨ev, h3⟩
          · rw [h3]; exact ih.upEnd e
          · rw [(move_grows h3).reader (ih.upEnd e)]; exact ih.upEnd e
        · generalize hu : w.down = h0 at h1
          cases h1 with
          | recv hs =>
            exact .step ih.right (.left (move_kept (.own ha.2 hs (by simp) (by simp) (by simp)) (by simp) (by simp)))
          | _ => exact ih.right
      | finish ha h1 h2 x1 x2 x3 x4 j1 j2 =>
        refine ⟨fun _ => ?_, ih.leaveL.rxB, ⟨ih.up, ih.down⟩, ih.upEnd, ih.downEnd, ih.right⟩
        have dL := (rL (ih.upEnd h1)).1
        have wL : w.left.b.io.writer = .done := by
          cases e : w.left.b.io.writer with
          | done => rfl
          | failed => exact absurd e lL.wB.1
          | panicked => exact absurd e lL.wB.2
          | _ => simp [join, dL, e] at j1
        have j3 := j2 (C58_ok_iff.2 ⟨dL, wL⟩)
        have dR : w.right.a.io.reader = .done := (rR (ih.downEnd h2)).1
        refine ⟨⟨by simp [dL, Reader.ended], by simp [wL, Writer.ended]⟩, ih.downEnd h2, ?_⟩
        cases e : w.right.a.io.writer with
        | idle => simp [join, dR, e] at j3
        | writing _ => simp [join, dR, e] at j3
        | _ => rfl
    obtain ⟨r1, r2, ⟨r3, r4⟩, r5, r6, r7⟩ := rest
    obtain ⟨l1, l2⟩ := passing_leaves (.step hr hs) hp (fun e => (r1 e).1) r2
    exact ⟨r7, l1, l2, r3, r4, r5, r6, r1⟩

theorem step_unkept {k : Kind} {s s' : State} {a : Act} (h : Step k { s with rxAlive := true } a s') (h1 : a ≠ .dropRx)
    (h2 : ∀ m, a ≠ .deliver m) : Step k s a { s' with rxAlive := s.rxAlive } := by
  cases h with
  | arrive bs e => exact .arrive s bs e
  | hangUp b e => exact .hangUp s b e
  | read r e1 e2 =>
    have := Step.read (k := k) s r e1 e2
    cases r <;> exact this
  | deliver m e1 e2 => exact absurd rfl (h2 m)
  | undeliverable m e1 e2 => cases e2
  | dropRx => exact absurd rfl h1
  | accept m e1 e2 => exact .accept s m e1 e2
  | write x y e1 e2 => exact .write s x y e1 e2
  | written e => exact .written s e
  | writeFails b e => exact .writeFails s b e
  | dropTx => exact .dropTx s
  | close e1 e2 => exact .close s e1 e2

theorem move_unkept {k k' : Kind} {x y x' : Side} {act : Act} (hg : x.gone = false)
    (h : Move k k' (keptSide x) y (.act act) x') (h1 : act ≠ .dropRx) (h2 : ∀ m, act ≠ .deliver m) :
    ∃ x'', Move k k' x y (.act act) x'' := by
  cases h with
  | own a b c d e => exact ⟨_, .own hg (step_unkept b h1 h2) c d e⟩
  | arrive a b c d => exact ⟨_, .arrive hg b c (step_unkept d h1 h2)⟩
  | fin a b c d => exact ⟨_, .fin hg b c (step_unkept d h1 h2)⟩
  | reset a b c d e => exact ⟨_, .reset hg b c d (step_unkept e h1 h2)⟩
  | fails a b c d e => exact ⟨_, .fails hg b c d (step_unkept e h1 h2)⟩

/-- A side with both threads ended and its input at the end has nothing to do. -/
theorem ended_still {k k' : Kind} {x y x' : Side} {ev : Ev} (h : Move k k' x y ev x') (h1 : x.io.reader.ended = true)
    (h2 : x.io.writer.ended = true) (h3 : x.io.inEnd ≠ none) : ev.app = true := by
  have key : ∀ {act : Act} {s : State}, Step k x.io act s → Ev.app (.act act) = true := by
    intro act s hs
    cases hs with
    | arrive bs e => exact absurd e h3
    | hangUp b e => exact absurd e h3
    | read r e _ => rw [e] at h1; cases h1
    | deliver m e _ => rw [e] at h1; cases h1
    | undeliverable m e _ => rw [e] at h1; cases h1
    | dropRx => rfl
    | accept m _ _ => rfl
    | write a b e _ => rw [e] at h2; cases h2
    | written e => rw [e] at h2; cases h2
    | writeFails b e => rw [e] at h2; cases h2
    | dropTx => rfl
    | close e _ => rw [e] at h2; cases h2
  cases h with
  | own _ hs _ _ _ => exact key hs
  | arrive _ _ _ hs => exact key hs
  | fin _ _ _ hs => exact key hs
  | reset _ _ _ _ hs => exact key hs
  | fails _ _ _ _ hs => exact key hs
  | exit _ => rfl

/-- A thread of the relay with a message in its hand can go on, or the writer thread it waits for can. -/
theorem held_goes {ks kd k' : Kind} {s d y : Side} {m : Message} (hg : d.gone = false) (ht : d.io.txAlive = true) :
    (∃ s' h' d', Carry ks kd s (.holding m) d s' h' d') ∨
    ∃ act d', Move kd k' d y (.act act) d' ∧ Ev.app (.act act) = false ∧ ∀ m, act ≠ .deliver m := by
  cases e : d.io.writer with
  | idle => exact .inl ⟨_, _, _, .send (.accept _ m e ht)⟩
  | writing r =>
    cases r with
    | nil => exact .inr ⟨_, _, .own hg (.written _ e) (by simp) (by simp) (by simp), rfl, by simp⟩
    | cons c r => exact .inr ⟨_, _, .own hg (.write _ [c] r e (by simp)) (by simp) (by simp) (by simp), rfl, by simp⟩
  | _ => exact .inl ⟨_, _, _, .unsent (by simp [e, Writer.ended])⟩

/-- Nothing in the relay can go on. Proof helper for bsp-server/src/transporter.rs:14-80. -/
def Bridge.Still (kc kl ks : Kind) (w : Bridge.World) : Prop := ∀ w', ¬ Next kc kl ks w .relay w'

theorem rest_still {kc kl ks : Kind} {w : Bridge.World} (hq : Bridge.Quiet kc kl ks w) : Bridge.Still kc kl ks w :=
  fun _ h => by cases hq _ _ h

/-- At rest the relay's threads cannot go on. -/
theorem quiet_carry {kc kl ks : Kind} {w : Bridge.World} (hq : Bridge.Still kc kl ks w) (aw : w.awake) :
    (∀ {h b h' a}, w.up = h → ¬ Carry kl .socket w.left.b h w.right.a b h' a) ∧
    (∀ {h b h' a}, w.down = h → ¬ Carry .socket kl w.right.a h w.left.b a h' b) := by
  constructor
  · rintro _ b h' a rfl hc
    exact hq _ (.up aw hc)
  · rintro _ b h' a rfl hc
    exact hq _ (.down aw hc)

/-- At rest the relay has nothing in its hands. -/
theorem quiet_hands {kc kl ks : Kind} {w : Bridge.World} (h : Bridge.Reachable kc kl ks w) (hq : Bridge.Still kc kl ks w) :
    w.up.held = [] ∧ w.down.held = [] := by
  have hi := bridgeInv h
  have no : ∀ {w'}, ¬ Next kc kl ks w .relay w' := fun h1 => hq _ h1
  constructor
  · cases e : w.up with
    | holding m =>
      exfalso
      have ht : w.right.a.io.txAlive = true := by
        cases t : w.right.a.io.txAlive with
        | true => rfl
        | false => have := hi.up.2 (.inr t); rw [e] at this; cases this
      have hg : w.left.b.gone = false := by
        cases g : w.left.b.gone with
        | false => rfl
        | true => rw [(hi.drops g).2.2] at ht; cases ht
      rcases held_goes (ks := kl) (kd := .socket) (k' := ks) (s := w.left.b) (y := w.right.b) (m := m)
        (hi.gone ▸ hg) ht with ⟨s', h', d', hc⟩ | ⟨act, d', hm, h1, h2⟩
      · exact (quiet_carry hq ⟨hg, hi.gone ▸ hg⟩).1 e hc
      · exact no (.far hm h1 h2)
    | _ => rfl
  · cases e : w.down with
    | holding m =>
      exfalso
      have ht : w.left.b.io.txAlive = true := by
        cases t : w.left.b.io.txAlive with
        | true => rfl
        | false => have := hi.down.2 (.inr t); rw [e] at this; cases this
      have hg : w.left.b.gone = false := by
        cases g : w.left.b.gone with
        | false => rfl
        | true => rw [(hi.drops g).1.2] at ht; cases ht
      rcases held_goes (ks := .socket) (kd := kl) (k' := kc) (s := w.right.a) (y := w.left.a) (m := m)
        hg ht with ⟨s', h', d', hc⟩ | ⟨act, d', hm, h1, h2⟩
      · exact (quiet_carry hq ⟨hg, hi.gone ▸ hg⟩).2 e hc
      · exact no (.near hm h1 h2)
    | _ => rfl

/-- At rest a thread of the relay whose reader thread has ended has ended too, and dropped its handles. -/
theorem quiet_ended {kc kl ks : Kind} {w : Bridge.World} (h : Bridge.Reachable kc kl ks w) (hq : Bridge.Still kc kl ks w) :
    (w.left.b.io.reader.ended = true → w.up = .ended ∧ w.left.b.io.rxAlive = false ∧ w.right.a.io.txAlive = false) ∧
    (w.right.a.io.reader.ended = true → w.down = .ended ∧ w.right.a.io.rxAlive = false ∧ w.left.b.io.txAlive = false) := by
  have hi := bridgeInv h
  obtain ⟨q1, q2⟩ := quiet_hands h hq
  have no : ∀ {w'}, ¬ Next kc kl ks w .relay w' := fun h1 => hq _ h1
  cases g : w.left.b.gone with
  | true =>
    obtain ⟨⟨x1, x2⟩, x3, x4⟩ := hi.drops g
    exact ⟨fun _ => ⟨hi.up.2 (.inl x1), x1, x4⟩, fun _ => ⟨hi.down.2 (.inl x3), x3, x2⟩⟩
  | false =>
    have aw : w.awake := ⟨g, hi.gone ▸ g⟩
    constructor
    · intro he
      have hu : w.up = .ended := by
        cases e : w.up with
        | waiting => exact absurd (.closed he) ((quiet_carry hq aw).1 e)
        | holding m => rw [e] at q1; cases q1
        | ended => rfl
      refine ⟨hu, ?_, ?_⟩
      · cases t : w.left.b.io.rxAlive with
        | false => rfl
        | true => exact absurd (.dropRx t) ((quiet_carry hq aw).1 hu)
      · cases t : w.right.a.io.txAlive with
        | false => rfl
        | true => exact absurd (.dropTx t) ((quiet_carry hq aw).1 hu)
    · intro he
      have hu : w.down = .ended := by
        cases e : w.down with
        | waiting => exact absurd (.closed he) ((quiet_carry hq aw).2 e)
        | holding m => rw [e] at q2; cases q2
        | ended => rfl
      refine ⟨hu, ?_, ?_⟩
      · cases t : w.right.a.io.rxAlive with
        | false => rfl
        | true => exact absurd (.dropRx t) ((quiet_carry hq aw).2 hu)
      · cases t : w.left.b.io.txAlive with
        | false => rfl
        | true => exact absurd (.dropTx t) ((quiet_carry hq aw).2 hu)

/-- At rest only its program could do something on the relay's side of the first link. -/
theorem still_left {kc kl ks : Kind} {pre : List Message} {w : Bridge.World} (h : Bridge.Reachable kc kl ks w)
    (hp : Spec.Passing pre w) (hq : Bridge.Still kc kl ks w) {ev : Ev} {b : Side} (hm : Move kl kc w.left.b w.left.a ev b) :
    ev.app = true := by
  have hi := bridgeInv h
  have pi := passInv h hp
  obtain ⟨q1, q2⟩ := quiet_hands h hq
  have no : ∀ {w'}, ¬ Next kc kl ks w .relay w' := fun h1 => hq _ h1
  have g := move_awake hm
  have aw : w.awake := ⟨g, hi.gone ▸ g⟩
  cases ev with
  | exit => rfl
  | act act =>
    cases ha : Ev.app (.act act) with
    | true => rfl
    | false =>
      exfalso
      by_cases hd : ∃ m, act = .deliver m
      · obtain ⟨m, rfl⟩ := hd
        cases hm with
        | own _ hs _ _ _ =>
          have hr : w.left.b.io.reader = .sending m := by cases hs; assumption
          cases e : w.up with
          | waiting => exact (quiet_carry hq aw).1 e (.recv hs)
          | holding m => rw [e] at q1; cases q1
          | ended => have := pi.upEnd e; rw [hr] at this; cases this
      · exact no (.near hm ha (fun m e => hd ⟨m, e⟩))

/-- At rest only its program could do something on the relay's side of the second link. -/
theorem still_right {kc kl ks : Kind} {pre : List Message} {w : Bridge.World} (h : Bridge.Reachable kc kl ks w)
    (hp : Spec.Passing pre w) (hq : Bridge.Still kc kl ks w) {ev : Ev} {a : Side}
    (hm : Move .socket ks (keptSide w.right.a) w.right.b ev a) : ev.app = true := by
  have hi := bridgeInv h
  have pi := passInv h hp
  obtain ⟨q1, q2⟩ := quiet_hands h hq
  obtain ⟨d1, _⟩ := leave_reader pi.right pi.leaveR (leaveInv pi.right pi.leaveR)
  have no : ∀ {w'}, ¬ Next kc kl ks w .relay w' := fun h1 => hq _ h1
  cases g : w.right.a.gone with
  | true =>
    have e := (pi.gone (hi.gone.trans g)).2
    exact ended_still hm e.1 e.2 (by have := (d1 e.1).2.1; change w.right.a.io.inEnd = _ at this; change w.right.a.io.inEnd ≠ none; rw [this]; simp)
  | false =>
    have aw : w.awake := ⟨hi.gone.trans g, g⟩
    cases ev with
    | exit => rfl
    | act act =>
      cases ha : Ev.app (.act act) with
      | true => rfl
      | false =>
        exfalso
        by_cases hd : ∃ m, act = .deliver m
        · obtain ⟨m, rfl⟩ := hd
          cases hm with
          | own _ hs _ _ _ =>
            have hr : w.right.a.io.reader = .sending m := by cases hs; assumption
            cases e : w.down with
            | waiting =>
              have hx : w.right.a.io.rxAlive = true := by
                cases t : w.right.a.io.rxAlive with
                | true => rfl
                | false => have := hi.down.2 (.inl t); rw [e] at this; cases this
              exact (quiet_carry hq aw).2 e (.recv (.deliver _ m hr hx))
            | holding m => rw [e] at q2; cases q2
            | ended => have := pi.downEnd e; rw [hr] at this; cases this
        · obtain ⟨x'', h1⟩ := move_unkept g hm (by rintro rfl; cases ha) (fun m e => hd ⟨m, e⟩)
          exact no (.far h1 ha (fun m e => hd ⟨m, e⟩))

/-- The relay's side of the second link is closed when it is closed with its receiver kept. -/
theorem kept_closed {kc kl ks : Kind} {pre : List Message} {w : Bridge.World} (h : Bridge.Reachable kc kl ks w)
    (hp : Spec.Passing pre w) : (keptSide w.right.a).closed .socket = w.right.a.closed .socket := by
  have hi := bridgeInv h
  have pi := passInv h hp
  simp only [keptSide, Side.closed]
  cases e : w.right.a.gone with
  | false => rfl
  | true =>
    rw [← hi.gone] at e
    simp [(pi.gone e).2]

/-- At rest the two links are at rest. -/
theorem quiet_links {kc kl ks : Kind} {pre : List Message} {w : Bridge.World} (h : Bridge.Reachable kc kl ks w)
    (hp : Spec.Passing pre w) (hq : Bridge.Quiet kc kl ks w) :
    Link.Quiet kc kl w.left ∧ Link.Quiet .socket ks (keptLink w.right) := by
  constructor
  · intro ev l' hs
    cases hs with
    | left hm => exact hq _ _ (.client hm)
    | right hm => exact still_left h hp (rest_still hq) hm
  · intro ev l' hs
    cases hs with
    | right hm => exact hq _ _ (.server (move_other hm rfl rfl rfl (kept_closed h hp).symm))
    | left hm => exact still_right h hp (rest_still hq) hm

/-- C141: a client and a server that talk through a relay.  The client has sent its messages and then exit, the
server has sent what it had to send, both have dropped their senders and go on receiving (the server at least up to
exit).  When nothing can happen any more - and the server has exited, if it uses the standard streams - everything is as
if they had been connected to each other (C92): their `join`s have returned Ok, and each has received everything that the
other has sent; both `join`s of the relay have returned Ok too, and it has exited. -/
theorem C141_joined {kc kl ks : Kind} {pre : List Message} {w : Bridge.World} (h : Bridge.Reachable kc kl ks w)
    (hp : Spec.Passing pre w) (hx : w.left.a.io.accepted = pre ++ [.notification .exit])
    (ht : w.left.a.io.txAlive = false ∧ w.right.b.io.txAlive = false) (hc : ks = .socket ∨ w.right.b.gone = true)
    (hq : Bridge.Quiet kc kl ks w) :
    (join kc w.left.a.io = .ok ∧ w.left.a.io.delivered = w.right.b.io.accepted.map Spec.heard) ∧
    (join ks w.right.b.io = .ok ∧ w.right.b.io.delivered = w.left.a.io.accepted.map Spec.heard) ∧
    (join kl w.left.b.io = .ok ∧ join .socket w.right.a.io = .ok) ∧ w.left.b.gone = true ∧ w.right.a.gone = true := by
  have hi := bridgeInv h
  have pi := passInv h hp
  obtain ⟨q1, q2⟩ := quiet_hands h (rest_still hq)
  obtain ⟨e1, e2⟩ := quiet_ended h (rest_still hq)
  obtain ⟨lq, rq⟩ := quiet_links h hp hq
  have hl := bridge_left h
  obtain ⟨_, dL, xL⟩ := leaving_got hl pi.leaveL hx ht.1 lq
  obtain ⟨u1, u2, u3⟩ := e1 (by rw [dL]; rfl)
  have hup := pi.up
  rw [q1, List.append_nil, (exit_received (link_pair hl) pi.leaveL.okA pi.leaveL.before pi.leaveL.sentA xL).2.1] at hup
  obtain ⟨⟨jR, rR⟩, jS, rS⟩ := C92_joined pi.right pi.leaveR
    (by change w.right.a.io.accepted = _; rw [← hup]; simp only; rw [hx, List.map_append]; rfl) ⟨u3, ht.2⟩ hc rq
  change w.right.a.io.delivered = w.right.b.io.accepted.map Spec.heard at rR
  change w.right.b.io.delivered = w.right.a.io.accepted.map Spec.heard at rS
  change join .socket { w.right.a.io with rxAlive := true } = .ok at jR
  have jR : join .socket w.right.a.io = .ok := jR
  obtain ⟨v1, v2, v3⟩ := e2 (by rw [(C58_ok_iff.1 jR).1]; rfl)
  have hdn := pi.down
  rw [q2, List.append_nil, rR] at hdn
  obtain ⟨_, _, wL⟩ := leaving_rest hl pi.leaveL hx ⟨ht.1, v3⟩ lq
  have jL : join kl w.left.b.io = .ok := C58_ok_iff.2 ⟨dL, wL⟩
  have g : w.left.b.gone = true := by
    cases g : w.left.b.gone with
    | true => rfl
    | false => cases hq _ _ (.finish ⟨g, hi.gone ▸ g⟩ u1 v1 u2 v3 v2 u3 (by rw [jL]; simp) (by rw [jR]; simp))
  obtain ⟨⟨jC, rC⟩, _⟩ := C92_joined hl pi.leaveL hx ⟨ht.1, v3⟩ (.inr g) lq
  refine ⟨⟨jC, ?_⟩, ⟨jS, ?_⟩, ⟨jL, jR⟩, g, hi.gone ▸ g⟩
  · rw [rC, ← hdn, (relayed_map hp.okB).2]
  · rw [rS, ← hup, (relayed_map hp.okA).2]

end

/-! ### Coming to rest -/

section
variable [Ext] [FloatText]

/-- What the writer has left to do. Proof helper for bsp-server/src/transporter.rs:16-23, 65-74. -/
def outWork (s : State) : Nat := match s.writer with | .writing r => 4 * r.length + 2 | .idle => 1 | _ => 0

/-- What the reader has left to do. Proof helper for bsp-server/src/transporter.rs:25-41, 51-61. -/
def inWork (s : State) : Nat :=
  2 * s.unread.length + (match s.reader with | .reading => 1 | .sending _ => 2 | _ => 0) +
    (match s.inEnd with | none => 1 | some _ => 0)

/-- What is left to do on the way from `x` to `y`. Proof helper for bsp-server/src/transporter.rs:14-80. -/
def wayLeft (x y : Side) : Nat := outWork x.io + 3 * (x.io.out.length - y.io.arrived.length) + inWork y.io

theorem move_way {k k' : Kind} {x y x' : Side} {ev : Ev} (h : Move k k' x y ev x') (ha : ev.app = false)
    (hxy : x.io.arrived <+: y.io.out) (hyx : y.io.arrived <+: x.io.out) :
    (wayLeft x' y < wayLeft x y ∧ wayLeft y x' = wayLeft y x) ∨
    (wayLeft x' y = wayLeft x y ∧ wayLeft y x' < wayLeft y x) := by
  have e := move_effort h ha hxy hyx
  have eff : ∀ s : State, effort s = outWork s + inWork s := by
    intro s
    simp only [effort, outWork, inWork]
    cases s.writer <;> cases s.reader <;> cases s.inEnd <;> simp only [] <;> omega
  rw [eff, eff] at e
  have key : (outWork x'.io = outWork x.io ∧ x'.io.out = x.io.out) ∨ (inWork x'.io = inWork x.io ∧ x'.io.arrived = x.io.arrived) := by
    cases h with
    | own _ h1 h2 h3 h4 =>
      cases h1 with
      | arrive bs _ => exact absurd rfl (h2 bs)
      | hangUp b _ => exact absurd rfl (h3 b)
      | writeFails b _ => exact absurd rfl h4
      | read r h5 h6 => left; cases r <;> exact ⟨rfl, rfl⟩
      | deliver m h5 h6 => exact .inl ⟨rfl, rfl⟩
      | undeliverable m h5 h6 => exact .inl ⟨rfl, rfl⟩
      | dropRx => cases ha
      | accept m _ _ => cases ha
      | dropTx => cases ha
      | write a b h5 h6 => exact .inr ⟨rfl, rfl⟩
      | written h5 => exact .inr ⟨rfl, rfl⟩
      | close h5 _ => exact .inr ⟨rfl, rfl⟩
    | arrive _ h1 h2 h3 => cases h3; exact .inl ⟨rfl, rfl⟩
    | fin _ _ _ h1 => cases h1; exact .inl ⟨rfl, rfl⟩
    | reset _ _ _ _ h1 => cases h1; exact .inl ⟨rfl, rfl⟩
    | fails _ _ _ _ h1 => cases h1; exact .inr ⟨rfl, rfl⟩
    | exit _ => cases ha
  rcases key with ⟨k1, k2⟩ | ⟨k1, k2⟩
  · right
    simp only [wayLeft, k1, k2] at *
    exact ⟨trivial, by omega⟩
  · left
    simp only [wayLeft, k1, k2] at *
    exact ⟨by omega, trivial⟩

/-- What a thread of the relay has left to do with what it has. Proof helper for bsp-server/src/lib.rs:37-40. -/
def Bridge.Hand.left : Hand → Nat
  | .waiting => 2
  | .holding m => 4 * (Frame.write m).length + 4
  | .ended => 0

/-- What is left to do towards the relay. Proof helper for bsp-server/src/transporter.rs:14-80. -/
def towards (w : Bridge.World) : Nat := wayLeft w.left.a w.left.b + wayLeft w.right.b w.right.a

/-- What is left to do in the relay and away from it. Proof helper for bsp-server/src/transporter.rs:14-80. -/
def onwards (w : Bridge.World) : Nat :=
  wayLeft w.right.a w.right.b + wayLeft w.left.b w.left.a + w.up.left + w.down.left +
    (w.left.b.io.rxAlive.toNat + w.left.b.io.txAlive.toNat + w.right.a.io.rxAlive.toNat + w.right.a.io.txAlive.toNat) +
    (!w.left.b.gone).toNat

/-- What a step of a thread of the relay leaves to do. -/
theorem carry_work {ks kd : Kind} {s d s' d' : Side} {h h' : Hand} (hc : Carry ks kd s h d s' h' d') :
    (∀ y, wayLeft s' y = wayLeft s y) ∧ (∀ y, wayLeft y d' = wayLeft y d) ∧
    ((∀ y, wayLeft y s' < wayLeft y s) ∨
     (∀ y, wayLeft y s' = wayLeft y s) ∧ ∀ y, wayLeft d' y + h'.left + (s'.io.rxAlive.toNat + d'.io.txAlive.toNat) <
        wayLeft d y + h.left + (s.io.rxAlive.toNat + d.io.txAlive.toNat)) := by
  cases hc with
  | recv hs =>
    cases hs with
    | deliver _ h1 h2 =>
      rename_i m
      refine ⟨fun y => rfl, fun y => rfl, .inl fun y => ?_⟩
      have : (match afterSend m with | .reading => 1 | .sending _ => 2 | _ => 0) ≤ 1 := by
        unfold afterSend; cases isExit m <;> simp
      simp only [wayLeft, inWork, h1]
      omega
  | closed h1 =>
    refine ⟨fun y => rfl, fun y => rfl, .inr ⟨fun y => rfl, fun y => ?_⟩⟩
    simp only [Hand.left]; omega
  | send hs =>
    cases hs with
    | accept m h1 h2 =>
      refine ⟨fun y => rfl, fun y => rfl, .inr ⟨fun y => rfl, fun y => ?_⟩⟩
      simp only [wayLeft, outWork, h1, Hand.left]; omega
  | unsent h1 =>
    refine ⟨fun y => rfl, fun y => rfl, .inr ⟨fun y => rfl, fun y => ?_⟩⟩
    simp only [Hand.left]; omega
  | dropRx h1 =>
    refine ⟨fun y => rfl, fun y => rfl, .inr ⟨fun y => rfl, fun y => ?_⟩⟩
    simp only [h1, Bool.toNat_true, Bool.toNat_false]; omega
  | dropTx h1 =>
    refine ⟨fun y => rfl, fun y => rfl, .inr ⟨fun y => rfl, fun y => ?_⟩⟩
    have : wayLeft { d with io := { d.io with txAlive := false } } y = wayLeft d y := rfl
    rw [this]
    simp only [h1, Bool.toNat_true, Bool.toNat_false]
    omega

end

section
variable [LawfulExt] [FloatText]

theorem bridge_work {kc kl ks : Kind} {w w' : Bridge.World} {x : Who} (h : Bridge.Reachable kc kl ks w)
    (hs : Next kc kl ks w x w') (hf : x.free = false) :
    towards w' < towards w ∨ (towards w' = towards w ∧ onwards w' < onwards w) := by
  obtain ⟨_, _, l1, l2⟩ := pair_inv (link_pair (bridge_left h))
  obtain ⟨_, _, r1, r2⟩ := pair_inv (link_pair (bridge_right h))
  have hi := bridgeInv h
  simp only at l1 l2 r1 r2
  cases hs with
  | client hm =>
    simp only [towards, onwards]
    rcases move_way hm hf l2 l1 with ⟨e1, e2⟩ | ⟨e1, e2⟩
    · left; omega
    · right; omega
  | server hm =>
    simp only [towards, onwards]
    rcases move_way hm hf r1 r2 with ⟨e1, e2⟩ | ⟨e1, e2⟩
    · left; omega
    · right; omega
  | near hm ha _ =>
    obtain ⟨k1, _, k2, k3⟩ := move_keeps hm ha
    simp only [towards, onwards, k1, k2, k3]
    rcases move_way hm ha l1 l2 with ⟨e1, e2⟩ | ⟨e1, e2⟩
    · right; omega
    · left; omega
  | far hm ha _ =>
    obtain ⟨k1, _, k2, k3⟩ := move_keeps hm ha
    simp only [towards, onwards, k2, k3]
    rcases move_way hm ha r2 r1 with ⟨e1, e2⟩ | ⟨e1, e2⟩
    · right; omega
    · left; omega
  | up ha hc =>
    obtain ⟨⟨_, e2⟩, _, e4⟩ := carry_other hc
    obtain ⟨g1, g2⟩ := carry_gone hc
    obtain ⟨c1, c2, c3⟩ := carry_work hc
    simp only [towards, onwards, e2, e4, g1]
    have a1 := c1 w.left.a
    have a2 := c2 w.right.b
    rcases c3 with c3 | ⟨c3, c4⟩
    · have a3 := c3 w.left.a
      left; omega
    · have a3 := c3 w.left.a
      have a4 := c4 w.right.b
      right; omega
  | down ha hc =>
    obtain ⟨⟨_, e2⟩, _, e4⟩ := carry_other hc
    obtain ⟨g1, g2⟩ := carry_gone hc
    obtain ⟨c1, c2, c3⟩ := carry_work hc
    simp only [towards, onwards, e2, e4, g2]
    have a1 := c1 w.right.b
    have a2 := c2 w.left.a
    rcases c3 with c3 | ⟨c3, c4⟩
    · have a3 := c3 w.right.b
      left; omega
    · have a3 := c3 w.right.b
      have a4 := c4 w.left.a
      right; omega
  | finish ha _ _ _ _ _ _ _ _ =>
    right
    refine ⟨rfl, ?_⟩
    simp only [onwards, ha.1]
    have e : ∀ y, wayLeft { w.left.b with gone := true } y = wayLeft w.left.b y := fun _ => rfl
    have e' : ∀ y, wayLeft { w.right.a with gone := true } y = wayLeft w.right.a y := fun _ => rfl
    rw [e, e']
    simp

/-- A run in which the client's and the server's program only receive.
Executions of bsp-server/src/transporter.rs:14-80 in three processes. -/
inductive Bridge.Runs (kc kl ks : Kind) : Bridge.World → Bridge.World → Prop
  | nil (w) : Runs kc kl ks w w
  | snoc {w w' x w''} : Runs kc kl ks w w' → Next kc kl ks w' x w'' → x.free = false → Runs kc kl ks w w''

theorem bridge_runs {kc kl ks : Kind} {w w' : Bridge.World} (h : Bridge.Runs kc kl ks w w') (hr : Bridge.Reachable kc kl ks w) :
    Bridge.Reachable kc kl ks w' := by
  induction h with
  | nil => exact hr
  | snoc _ hs _ ih => exact .step ih hs

/-- C141: as long as the client's and the server's program only receive, nothing can go on for ever, and there is a run to a
state where nothing can happen any more. -/
theorem C141_settles {kc kl ks : Kind} {w : Bridge.World} (h : Bridge.Reachable kc kl ks w) :
    (¬ ∃ f : Nat → Bridge.World, f 0 = w ∧ ∀ n, ∃ x, Next kc kl ks (f n) x (f (n + 1)) ∧ x.free = false) ∧
    ∃ w', Bridge.Runs kc kl ks w w' ∧ Bridge.Quiet kc kl ks w' := by
  constructor
  · rintro ⟨f, h0, hf⟩
    have hr : ∀ n, Bridge.Reachable kc kl ks (f n) := by
      intro n
      induction n with
      | zero => rw [h0]; exact h
      | succ n ih =>
        obtain ⟨x, h1, _⟩ := hf n
        exact .step ih h1
    have dec : ∀ n, towards (f (n + 1)) < towards (f n) ∨
        (towards (f (n + 1)) = towards (f n) ∧ onwards (f (n + 1)) < onwards (f n)) := by
      intro n
      obtain ⟨x, h1, h2⟩ := hf n
      exact bridge_work (hr n) h1 h2
    have : ∀ a b n, towards (f n) = a → onwards (f n) = b → False := by
      intro a
      induction a using Nat.strongRecOn with
      | _ a iha =>
        intro b
        induction b using Nat.strongRecOn with
        | _ b ihb =>
          intro n ha hb
          rcases dec n with h1 | ⟨h1, h2⟩
          · exact iha _ (by omega) _ (n + 1) rfl rfl
          · exact ihb _ (by omega) (n + 1) (h1.trans ha) rfl
    exact this _ _ 0 rfl rfl
  · suffices ∀ a b w', towards w' = a → onwards w' = b → Bridge.Runs kc kl ks w w' →
        ∃ w', Bridge.Runs kc kl ks w w' ∧ Bridge.Quiet kc kl ks w' from this _ _ w rfl rfl (.nil w)
    intro a
    induction a using Nat.strongRecOn with
    | _ a iha =>
      intro b
      induction b using Nat.strongRecOn with
      | _ b ihb =>
        intro w' ha hb hr
        by_cases hq : Bridge.Quiet kc kl ks w'
        · exact ⟨w', hr, hq⟩
        · unfold Bridge.Quiet at hq
          simp only [Classical.not_forall, Bool.not_eq_true] at hq
          obtain ⟨x, w'', hs, hf⟩ := hq
          rcases bridge_work (bridge_runs hr h) hs hf with h1 | ⟨h1, h2⟩
          · exact iha _ (by omega) _ w'' rfl rfl (.snoc hr hs hf)
          · exact ihb _ (by omega) w'' (h1.trans ha) rfl (.snoc hr hs hf)

/-- What only the client's and the server's program can change, and what does not get lost. -/
theorem runs_ends {kc kl ks : Kind} {w w' : Bridge.World} (h : Bridge.Runs kc kl ks w w') :
    (w'.left.a.gone = w.left.a.gone ∧ w'.left.a.io.accepted = w.left.a.io.accepted ∧
      w'.left.a.io.rxAlive = w.left.a.io.rxAlive ∧ w'.left.a.io.txAlive = w.left.a.io.txAlive) ∧
    (w'.right.b.gone = w.right.b.gone ∧ w'.right.b.io.accepted = w.right.b.io.accepted ∧
      w'.right.b.io.rxAlive = w.right.b.io.rxAlive ∧ w'.right.b.io.txAlive = w.right.b.io.txAlive) ∧
    w.right.b.io.delivered <+: w'.right.b.io.delivered ∧ 
    (w.right.b.io.reader.ended = true ∧ w.right.b.io.writer.ended = true →
      w'.right.b.io.reader.ended = true ∧ w'.right.b.io.writer.ended = true) := by
  induction h with
  | nil => exact ⟨⟨rfl, rfl, rfl, rfl⟩, ⟨rfl, rfl, rfl, rfl⟩, List.prefix_refl _, id⟩
  | snoc _ hs hf ih =>
    obtain ⟨⟨a1, a2, a3, a4⟩, ⟨b1, b2, b3, b4⟩, hd, he⟩ := ih
    cases hs with
    | client hm =>
      obtain ⟨c1, c2, c3, c4⟩ := move_keeps hm hf
      exact ⟨⟨c1.trans a1, c2.trans a2, c3.trans a3, c4.trans a4⟩, ⟨b1, b2, b3, b4⟩, hd, he⟩
    | server hm =>
      obtain ⟨c1, c2, c3, c4⟩ := move_keeps hm hf
      have g := move_grows hm
      refine ⟨⟨a1, a2, a3, a4⟩, ⟨c1.trans b1, c2.trans b2, c3.trans b3, c4.trans b4⟩, hd.trans g.delivered, fun h => ?_⟩
      have := he h
      simp only [g.reader this.1, g.writer this.2]
      exact this
    | _ => exact ⟨⟨a1, a2, a3, a4⟩, ⟨b1, b2, b3, b4⟩, hd, he⟩

theorem runs_passing {kc kl ks : Kind} {pre : List Message} {w w' : Bridge.World} (h : Bridge.Runs kc kl ks w w')
    (hp : Spec.Passing pre w) : Spec.Passing pre w' := by
  obtain ⟨⟨a1, a2, a3, a4⟩, ⟨b1, b2, b3, b4⟩, hd, he⟩ := runs_ends h
  refine ⟨⟨by rw [a1]; exact hp.gone.1, fun e => he (hp.gone.2 (b1 ▸ e))⟩, by rw [a2]; exact hp.okA, by rw [b2]; exact hp.okB,
    hp.before, by rw [a2]; exact hp.sentA, by rw [b2]; exact hp.sentB, by rw [a3]; exact hp.rxA, ?_⟩
  rw [b3]
  exact hp.rxB.imp id (fun h => hd.subset h)

/-- C141: so, from the moment on when client and server (on a socket) have sent everything and dropped their senders, the
two need only go on receiving: every maximal run ends, and with everything delivered, all joined and the relay gone. -/
theorem C141_leave {kc kl : Kind} {pre : List Message} {w : Bridge.World} (h : Bridge.Reachable kc kl .socket w)
    (hp : Spec.Passing pre w) (hx : w.left.a.io.accepted = pre ++ [.notification .exit])
    (ht : w.left.a.io.txAlive = false ∧ w.right.b.io.txAlive = false) :
    (∃ w', Bridge.Runs kc kl .socket w w' ∧ Bridge.Quiet kc kl .socket w') ∧
    ∀ w', Bridge.Runs kc kl .socket w w' → Bridge.Quiet kc kl .socket w' →
      (join kc w'.left.a.io = .ok ∧ w'.left.a.io.delivered = w.right.b.io.accepted.map Spec.heard) ∧
      (join .socket w'.right.b.io = .ok ∧ w'.right.b.io.delivered = w.left.a.io.accepted.map Spec.heard) ∧
      w'.left.b.gone = true := by
  refine ⟨(C141_settles h).2, fun w' hr hq => ?_⟩
  obtain ⟨⟨_, a2, _, a4⟩, ⟨_, b2, _, b4⟩, _, _⟩ := runs_ends hr
  obtain ⟨h1, h2, _, h3, _⟩ := C141_joined (bridge_runs hr h) (runs_passing hr hp) (a2.trans hx)
    ⟨a4.trans ht.1, b4.trans ht.2⟩ (.inl rfl) hq
  rw [b2] at h1
  rw [a2] at h2
  exact ⟨h1, h2, h3⟩

/-- A side whose program has sent `ms` and dropped its sender. -/
def saidSide (ms : List Message) : Side :=
  ⟨{ out := ms.flatMap Frame.write, accepted := ms, txAlive := false }, false⟩

/-- Beside C141_leave: client and server may have sent whatever they like, and dropped their senders, before the relay
does anything. -/
theorem bridge_said (kc kl ks : Kind) (ms ns : List Message) :
    Bridge.Reachable kc kl ks { left := { a := saidSide ms }, right := { b := saidSide ns } } := by
  have wrote : ∀ m : Message, Frame.write m ≠ [] := by
    intro m e
    have := congrArg List.length e
    simp [Frame.write, Frame.frame, utf8] at this
    exact absurd this.1 (by decide)
  have c : ∀ (r l : List Message), Bridge.Reachable kc kl ks
      { left := { a := ⟨{ out := l.flatMap Frame.write, accepted := l }, false⟩ } } → Bridge.Reachable kc kl ks
      { left := { a := ⟨{ out := (l ++ r).flatMap Frame.write, accepted := l ++ r }, false⟩ } } := by
    intro r
    induction r with
    | nil => intro l h; rw [List.append_nil]; exact h
    | cons m r ih =>
      intro l h
      have h1 := h.step (.client (.own rfl (.accept _ m rfl rfl) (by simp) (by simp) (by simp)))
      have h2 := h1.step (.client (.own rfl (.write _ (Frame.write m) [] (by simp) (wrote m)) (by simp) (by simp) (by simp)))
      have h3 := h2.step (.client (.own rfl (.written _ rfl) (by simp) (by simp) (by simp)))
      have := ih (l ++ [m]) (by simpa using h3)
      simpa using this
  have s : ∀ (r l : List Message), Bridge.Reachable kc kl ks
      { left := { a := saidSide ms }, right := { b := ⟨{ out := l.flatMap Frame.write, accepted := l }, false⟩ } } →
      Bridge.Reachable kc kl ks
      { left := { a := saidSide ms },
        right := { b := ⟨{ out := (l ++ r).flatMap Frame.write, accepted := l ++ r }, false⟩ } } := by
    intro r
    induction r with
    | nil => intro l h; rw [List.append_nil]; exact h
    | cons m r ih =>
      intro l h
      have h1 := h.step (.server (.own rfl (.accept _ m rfl rfl) (by simp) (by simp) (by simp)))
      have h2 := h1.step (.server (.own rfl (.write _ (Frame.write m) [] (by simp) (wrote m)) (by simp) (by simp) (by simp)))
      have h3 := h2.step (.server (.own rfl (.written _ rfl) (by simp) (by simp) (by simp)))
      have := ih (l ++ [m]) (by simpa using h3)
      simpa using this
  have h1 := (c ms [] .start).step (.client (.own rfl (.dropTx _) (by simp) (by simp) (by simp)))
  exact (s ns [] h1).step (.server (.own rfl (.dropTx _) (by simp) (by simp) (by simp)))

end

section
attribute [local instance] Ext.sample FloatText.sample

/-- Beside C141_order, C141_settles, C141_joined, C141_leave: the client has sent a shutdown request (which is heard as an
empty response, at the relay already) and exit, the server a response, and both have dropped their senders. -/
theorem sampleRelay_passing : Spec.Passing [.request (.shutdown (.i32 4))]
    { left := { a := saidSide [.request (.shutdown (.i32 4)), .notification .exit] }, right := { b := saidSide [sampleOut] } } := by
  refine ⟨⟨rfl, by simp [saidSide]⟩, ?_, ?_, by simp, List.prefix_refl _, by simp [saidSide, sampleOut], rfl, .inl rfl⟩
  · intro m hm
    simp only [saidSide, List.mem_cons, List.not_mem_nil, or_false] at hm
    rcases hm with rfl | rfl
    · exact shutdown_sayable
    · exact sayable_of exit_ok
  · intro m hm
    simp only [saidSide, List.mem_cons, List.not_mem_nil, or_false] at hm
    subst hm
    exact sayable_of sampleOut_ok

/-- Beside C141_order, C141_settles, C141_joined, C141_leave. -/
example (kc kl : Kind) : ∃ w, Bridge.Reachable kc kl .socket w ∧ Bridge.Quiet kc kl .socket w ∧ w.left.b.gone = true ∧
    (join kc w.left.a.io = .ok ∧ w.left.a.io.delivered = [Spec.heard sampleOut]) ∧
    w.right.b.io.delivered = [.response ⟨.i32 4, none, none⟩, .notification .exit] := by
  have h := bridge_said kc kl .socket [.request (.shutdown (.i32 4)), .notification .exit] [sampleOut]
  have hl := C141_leave h sampleRelay_passing rfl ⟨rfl, rfl⟩
  obtain ⟨w, hr, hq⟩ := (C141_settles h).2
  obtain ⟨h1, h2, h3⟩ := hl.2 w hr hq
  exact ⟨w, bridge_runs hr h, hq, h3, h1, h2.2⟩

/-- Beside C141_joined, C141_order: the same at the state of rest itself. -/
example (kc kl : Kind) (w : Bridge.World) (hr : Bridge.Runs kc kl .socket
      { left := { a := saidSide [.request (.shutdown (.i32 4)), .notification .exit] }, right := { b := saidSide [sampleOut] } } w)
    (hq : Bridge.Quiet kc kl .socket w) :
    join .socket w.right.a.io = .ok ∧ w.right.b.io.delivered <+: w.left.a.io.accepted.map Spec.heard := by
  have h := bridge_runs hr (bridge_said kc kl .socket _ _)
  have hp := runs_passing hr sampleRelay_passing
  obtain ⟨⟨_, a2, _, a4⟩, ⟨_, b2, _, b4⟩, _, _⟩ := runs_ends hr
  exact ⟨(C141_joined h hp a2 ⟨a4, b4⟩ (.inl rfl) hq).2.2.1.2, (C141_order h).1 hp.okA⟩

end
end Bsp
