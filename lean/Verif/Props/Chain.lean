/-
C142: a chain of relays, however long, is not noticed either.
-/
import Verif.Chain
import Verif.Props.Bridge

set_option linter.unusedSectionVars false

namespace Bsp
open Frame Transport Link
open Bridge (Hand Carry Who)

section
variable [LawfulExt] [FloatText]

/-! ### The parts of a chain -/

theorem put_self (w : Chain.World) (i : Nat) (b : Bridge.World) : (w.put i b).link i = b.left := by simp [Chain.World.put]
theorem put_next (w : Chain.World) (i : Nat) (b : Bridge.World) : (w.put i b).link (i + 1) = b.right := by
  simp [Chain.World.put]
theorem put_other (w : Chain.World) {i j : Nat} (b : Bridge.World) (h1 : j ≠ i) (h2 : j ≠ i + 1) :
    (w.put i b).link j = w.link j := by simp [Chain.World.put, h1, h2]
theorem set_self (w : Chain.World) (i : Nat) (l : Link) : (w.set i l).link i = l := by simp [Chain.World.set]
theorem set_other (w : Chain.World) {i j : Nat} (l : Link) (h : j ≠ i) : (w.set i l).link j = w.link j := by
  simp [Chain.World.set, h]

theorem link_b {l l' : Link} (h : l'.a = l.a) : l' = { l with b := l'.b } := by cases l; cases l'; cases h; rfl
theorem link_a {l l' : Link} (h : l'.b = l.b) : l' = { l with a := l'.a } := by cases l; cases l'; cases h; rfl

/-- A step of a relay leaves the other ends of its two links alone. -/
theorem relay_sides {kc kl ks : Kind} {w w' : Bridge.World} (h : Bridge.Next kc kl ks w .relay w') :
    (w'.left.a = w.left.a ∧ w'.right.b = w.right.b) ∧
    (w'.left.b = w.left.b ∨ ∃ ev, Move kl kc w.left.b w.left.a ev w'.left.b) ∧
    (w'.right.a = w.right.a ∨ ∃ ev, Move .socket ks w.right.a w.right.b ev w'.right.a) := by
  cases h with
  | near h1 _ _ => exact ⟨⟨rfl, rfl⟩, .inr ⟨_, h1⟩, .inl rfl⟩
  | far h1 _ _ => exact ⟨⟨rfl, rfl⟩, .inl rfl, .inr ⟨_, h1⟩⟩
  | up ha h1 => exact ⟨⟨rfl, rfl⟩, carry_src h1 kc w.left.a ha.1, carry_dst h1 ks w.right.b ha.2⟩
  | down ha h1 => exact ⟨⟨rfl, rfl⟩, carry_dst h1 kc w.left.a ha.1, carry_src h1 ks w.right.b ha.2⟩
  | finish ha => exact ⟨⟨rfl, rfl⟩, .inr ⟨_, .exit ha.1⟩, .inr ⟨_, .exit ha.2⟩⟩

/-- Each link of the chain is two connected processes. -/
theorem chain_link {kc : Kind} {kl : Nat → Kind} {n : Nat} {w : Chain.World} (h : Chain.Reachable kc kl n w) :
    ∀ i ≤ n, Link.Reachable (Chain.near kc i) (kl i) (w.link i) := by
  induction h with
  | start => exact fun _ _ => .start
  | @step w x w' _ hs ih =>
    intro i hi
    cases hs with
    | client hm =>
      by_cases e : i = 0
      · subst e; rw [set_self]; exact .step (ih 0 hi) (.left hm)
      · rw [set_other _ _ e]; exact ih i hi
    | server hm =>
      by_cases e : i = n
      · subst e; rw [set_self]; exact .step (ih i hi) (.right hm)
      · rw [set_other _ _ e]; exact ih i hi
    | @relay j b hj hm =>
      obtain ⟨⟨e1, e2⟩, h1, h2⟩ := relay_sides hm
      by_cases e : i = j
      · subst e
        rw [put_self, link_b e1]
        rcases h1 with h1 | ⟨ev, h1⟩
        · rw [h1]; exact ih i hi
        · exact .step (ih i hi) (.right h1)
      · by_cases e' : i = j + 1
        · subst e'
          rw [put_next, link_a e2]
          rcases h2 with h2 | ⟨ev, h2⟩
          · rw [h2]; exact ih (j + 1) hi
          · exact .step (ih (j + 1) hi) (.left h2)
        · rw [put_other _ _ e e']; exact ih i hi

theorem around_set {w : Chain.World} {i k : Nat} {l : Link} (h1 : i ≠ k) (h2 : i + 1 ≠ k) :
    (w.set k l).around i = w.around i := by
  simp only [Chain.World.around, set_other _ _ h1, set_other _ _ h2]
  rfl

theorem hands_put {w : Chain.World} {i j : Nat} {b : Bridge.World} (h : i ≠ j) :
    (w.put j b).up i = w.up i ∧ (w.put j b).down i = w.down i := by simp [Chain.World.put, h]

theorem around_put {w : Chain.World} {i j : Nat} {b : Bridge.World} (h : i ≠ j) :
    (w.put j b).around i = ⟨(w.put j b).link i, (w.put j b).link (i + 1), w.up i, w.down i⟩ := by
  simp only [Chain.World.around, hands_put h]

theorem put_around {w : Chain.World} {i : Nat} {b : Bridge.World} : (w.put i b).around i = b := by
  simp [Chain.World.around, Chain.World.put]

/-- Around each relay there is what `Bridge` says: everything before it is like a client, everything after it
like a server. -/
theorem chain_around {kc : Kind} {kl : Nat → Kind} {n : Nat} {w : Chain.World} (h : Chain.Reachable kc kl n w) :
    ∀ i < n, Bridge.Reachable (Chain.near kc i) (kl i) (kl (i + 1)) (w.around i) := by
  induction h with
  | start => exact fun _ _ => .start
  | @step w x w' _ hs ih0 =>
    intro i hi
    have ih : Bridge.Reachable (Chain.near kc i) (kl i) (kl (i + 1)) (w.around i) := ih0 i hi
    cases hs with
    | client hm =>
      by_cases e : i = 0
      · subst e; exact .step ih (.client hm)
      · rw [around_set e (by omega)]; exact ih
    | @server ev b hm =>
      by_cases e : i + 1 = n
      · subst e
        have : (w.set (i + 1) { w.link (i + 1) with b }).around i =
            { w.around i with right := { (w.around i).right with b } } := by
          simp only [Chain.World.around, set_self, set_other _ _ (show i ≠ i + 1 by omega)]
          rfl
        rw [this]
        exact .step ih (.server hm)
      · rw [around_set (by omega) e]; exact ih
    | @relay j b hj hm =>
      obtain ⟨⟨e1, e2⟩, h1, h2⟩ := relay_sides hm
      by_cases e : i = j
      · subst e; rw [put_around]; exact .step ih hm
      · rw [around_put e]
        by_cases e' : i = j + 1
        · subst e'
          rw [put_next, put_other _ _ (by omega) (by omega), link_a e2]
          rcases h2 with h2 | ⟨ev, h2⟩
          · rw [h2]; exact ih
          · exact .step ih (.client h2)
        · by_cases e'' : i + 1 = j
          · subst e''
            rw [put_self, put_other _ _ (by omega) (by omega), link_b e1]
            rcases h1 with h1 | ⟨ev, h1⟩
            · rw [h1]; exact ih
            · exact .step ih (.server h1)
          · rw [put_other _ _ e e', put_other _ _ e'' (by omega)]; exact ih

/-! ### What comes through -/

/-- What is heard after `i` hops. Proof helper for bsp-server/src/message.rs:7-13, 42-49. -/
def hop : Nat → List Message → List Message
  | 0, ms => ms
  | i + 1, ms => (hop i ms).map Spec.heard

theorem hop_say {ms : List Message} (h : ∀ m ∈ ms, Spec.Sayable m) : ∀ i, ∀ m ∈ hop i ms, Spec.Sayable m
  | 0 => h
  | i + 1 => (relayed_map (hop_say h i)).1

/-- More hops change nothing. -/
theorem hop_heard {ms : List Message} (h : ∀ m ∈ ms, Spec.Sayable m) : ∀ i, hop (i + 1) ms = ms.map Spec.heard
  | 0 => rfl
  | i + 1 => by
    have := hop_heard h i
    rw [hop, this, (relayed_map h).2]

theorem hop_prefix {ms ns : List Message} (h : ms <+: ns) : ∀ i, hop i ms <+: hop i ns
  | 0 => h
  | i + 1 => (hop_prefix h i).map _

theorem hop_end (ms : List Message) : ∀ i, hop i (ms ++ [.notification .exit]) = hop i ms ++ [.notification .exit]
  | 0 => rfl
  | i + 1 => by rw [hop, hop_end ms i, List.map_append]; rfl

theorem hop_exit {ms : List Message} : ∀ {i}, Message.notification .exit ∈ hop i ms → Message.notification .exit ∈ ms
  | 0, h => h
  | i + 1, h => by
    obtain ⟨n, hn, he⟩ := List.mem_map.1 h
    rw [heard_exit he] at hn
    exact hop_exit hn

/-- What is sent on the way to the server. -/
theorem chain_sent {kc : Kind} {kl : Nat → Kind} {n : Nat} {w : Chain.World} (h : Chain.Reachable kc kl n w)
    (hs : ∀ m ∈ (w.link 0).a.io.accepted, Spec.Sayable m) :
    ∀ i ≤ n, (w.link i).a.io.accepted <+: hop i (w.link 0).a.io.accepted ∧ ∀ m ∈ (w.link i).a.io.accepted, Spec.Sayable m := by
  intro i
  induction i with
  | zero => exact fun _ => ⟨List.prefix_refl _, hs⟩
  | succ i ih =>
    intro hi
    obtain ⟨h1, h2⟩ := ih (by omega)
    have h3 := (bridgeInv (chain_around h i (by omega))).up.1.1
    have h4 := C56_heard (link_pair (chain_link h i (by omega))) h2
    have h5 := (((List.prefix_append _ _).trans h3).trans h4).trans (h1.map Spec.heard)
    exact ⟨h5, fun m hm => hop_say hs (i + 1) m (h5.subset hm)⟩

/-- What is sent on the way to the client. -/
theorem chain_back {kc : Kind} {kl : Nat → Kind} {n : Nat} {w : Chain.World} (h : Chain.Reachable kc kl n w)
    (hs : ∀ m ∈ (w.link n).b.io.accepted, Spec.Sayable m) :
    ∀ j i, i + j = n →
      (w.link i).b.io.accepted <+: hop j (w.link n).b.io.accepted ∧ ∀ m ∈ (w.link i).b.io.accepted, Spec.Sayable m := by
  intro j
  induction j with
  | zero => rintro i rfl; exact ⟨List.prefix_refl _, hs⟩
  | succ j ih =>
    intro i hi
    obtain ⟨h1, h2⟩ := ih (i + 1) (by omega)
    have h3 := (bridgeInv (chain_around h i (by omega))).down.1.1
    have h4 := C56_heard (pair_swap (link_pair (chain_link h (i + 1) (by omega)))) h2
    have h5 := (((List.prefix_append _ _).trans h3).trans h4).trans (h1.map Spec.heard)
    exact ⟨h5, fun m hm => hop_say hs (j + 1) m (h5.subset hm)⟩

/-- C142: through any number of relays, whatever they, the client, the server and the network do, and whatever fails, what
the server has received is a beginning of what is heard of what the client has sent, in order, nothing twice and nothing
made up, and the same the other way round. -/
theorem C142_order {kc : Kind} {kl : Nat → Kind} {n : Nat} {w : Chain.World} (h : Chain.Reachable kc kl n w) :
    ((∀ m ∈ (w.link 0).a.io.accepted, Spec.Sayable m) →
      (w.link n).b.io.delivered <+: (w.link 0).a.io.accepted.map Spec.heard) ∧
    ((∀ m ∈ (w.link n).b.io.accepted, Spec.Sayable m) →
      (w.link 0).a.io.delivered <+: (w.link n).b.io.accepted.map Spec.heard) := by
  constructor
  · intro hs
    obtain ⟨h1, h2⟩ := chain_sent h hs n (Nat.le_refl _)
    have h3 := (C56_heard (link_pair (chain_link h n (Nat.le_refl _))) h2).trans (h1.map Spec.heard)
    rw [← hop_heard hs n]
    exact h3
  · intro hs
    obtain ⟨h1, h2⟩ := chain_back h hs n 0 (by omega)
    have h3 := (C56_heard (pair_swap (link_pair (chain_link h 0 (Nat.zero_le _)))) h2).trans (h1.map Spec.heard)
    rw [← hop_heard hs n]
    exact h3

/-! ### Leaving through a chain -/

/-- What there is around relay `i`, with what is before it as if it were a client that goes on receiving.
Proof helper for bsp-server/src/transporter.rs:47-80. -/
def keptAround (w : Chain.World) (i : Nat) : Bridge.World := ⟨keptLink (w.link i), w.link (i + 1), w.up i, w.down i⟩

theorem kept_same {x : Side} (h1 : x.gone = false) (h2 : x.io.rxAlive = true) : keptSide x = x := by
  obtain ⟨io, g⟩ := x
  cases io
  simp only at h1 h2
  subst h1 h2
  rfl

/-- A step of a relay does not depend on more of the other end than its bytes, and whether it is closed. -/
theorem relay_other {kc kl ks : Kind} {w w' : Bridge.World} {y : Side} (h : Bridge.Next kc kl ks w .relay w')
    (h1 : y.io.out = w.left.a.io.out) (h2 : y.io.unread = w.left.a.io.unread) (h3 : y.io.arrived = w.left.a.io.arrived)
    (h4 : y.closed kc = w.left.a.closed kc) :
    Bridge.Next kc kl ks { w with left := ⟨y, w.left.b⟩ } .relay { w' with left := ⟨y, w'.left.b⟩ } := by
  cases h with
  | near hm a b => exact .near (w := { w with left := ⟨y, w.left.b⟩ }) (move_other hm h1 h2 h3 h4) a b
  | far hm a b => exact .far (w := { w with left := ⟨y, w.left.b⟩ }) hm a b
  | up ha hm => exact .up (w := { w with left := ⟨y, w.left.b⟩ }) ha hm
  | down ha hm => exact .down (w := { w with left := ⟨y, w.left.b⟩ }) ha hm
  | finish ha a1 a2 a3 a4 a5 a6 a7 a8 => exact .finish (w := { w with left := ⟨y, w.left.b⟩ }) ha a1 a2 a3 a4 a5 a6 a7 a8

/-- What a step of a relay is for its second connection, with its receiver kept. -/
theorem relay_right {kc kl ks : Kind} {w w' : Bridge.World} (h : Bridge.Next kc kl ks w .relay w')
    (hx : w.right.a.io.rxAlive = false → w.right.a.io.reader.ended = true) :
    keptSide w'.right.a = keptSide w.right.a ∨
      ∃ ev, Move .socket ks (keptSide w.right.a) w.right.b ev (keptSide w'.right.a) := by
  cases h with
  | near h1 _ _ => exact .inl rfl
  | @far act a h1 h2 h3 =>
    right
    refine ⟨_, move_kept h1 (by rintro rfl; cases h2) ?_⟩
    rintro rfl
    cases h1 with
    | own _ hs _ _ _ =>
      cases hs with
      | undeliverable m q1 q2 =>
        have := hx q2
        rw [q1] at this; cases this
  | up ha h1 =>
    generalize w.up = h0 at h1
    cases h1 with
    | send hs => exact .inr ⟨_, move_kept (.own ha.2 hs (by simp) (by simp) (by simp)) (by simp) (by simp)⟩
    | dropTx _ => exact .inr ⟨_, move_kept (.own ha.2 (.dropTx _) (by simp) (by simp) (by simp)) (by simp) (by simp)⟩
    | _ => exact .inl rfl
  | down ha h1 =>
    generalize w.down = h0 at h1
    cases h1 with
    | recv hs => exact .inr ⟨_, move_kept (.own ha.2 hs (by simp) (by simp) (by simp)) (by simp) (by simp)⟩
    | _ => exact .inl rfl
  | finish ha => exact .inl rfl

/-- Only the client and the server change the two ends. -/
theorem chain_ends {kc : Kind} {kl : Nat → Kind} {n : Nat} {w w' : Chain.World} {x : Who} (h : Chain.Next kc kl n w x w') :
    ((w'.link 0).a = (w.link 0).a ∨ ∃ ev, Move kc (kl 0) (w.link 0).a (w.link 0).b ev (w'.link 0).a) ∧
    ((w'.link n).b = (w.link n).b ∨ ∃ ev, Move (kl n) (Chain.near kc n) (w.link n).b (w.link n).a ev (w'.link n).b) := by
  cases h with
  | client hm =>
    constructor
    · rw [set_self]; exact .inr ⟨_, hm⟩
    · by_cases e : n = 0
      · subst e; rw [set_self]; exact .inl rfl
      · rw [set_other _ _ e]; exact .inl rfl
  | server hm =>
    constructor
    · by_cases e : 0 = n
      · subst e; rw [set_self]; exact .inl rfl
      · rw [set_other _ _ e]; exact .inl rfl
    · rw [set_self]; exact .inr ⟨_, hm⟩
  | @relay j b hj hm =>
    obtain ⟨⟨e1, e2⟩, _, _⟩ := relay_sides hm
    constructor
    · by_cases e : 0 = j
      · subst e; rw [put_self]; exact .inl e1
      · rw [put_other _ _ e (by omega)]; exact .inl rfl
    · by_cases e : n = j + 1
      · subst e; rw [put_next]; exact .inl e2
      · rw [put_other _ _ (by omega) e]; exact .inl rfl

/-- Each relay on the way passes on the messages of a client that leaves. -/
theorem chain_passing {kc : Kind} {kl : Nat → Kind} {n : Nat} {pre : List Message} {w : Chain.World}
    (h : Chain.Reachable kc kl n w) (hp : Spec.Passing pre (w.ends n))
    (hk : ∀ i < n, Bridge.Reachable (Chain.near kc i) (kl i) (kl (i + 1)) (keptAround w i)) :
    ∀ j i, i + j + 1 = n → Spec.Passing (hop i pre) (keptAround w i) := by
  intro j
  have fill : ∀ i, i < n → ((w.link (i + 1)).b.gone = true →
        (w.link (i + 1)).b.io.reader.ended = true ∧ (w.link (i + 1)).b.io.writer.ended = true) →
      ((w.link (i + 1)).b.io.rxAlive = true ∨ Message.notification .exit ∈ (w.link (i + 1)).b.io.delivered) →
      Spec.Passing (hop i pre) (keptAround w i) := by
    intro i hi hg hx
    obtain ⟨a1, a2⟩ := chain_sent h hp.okA i (by omega)
    obtain ⟨b1, b2⟩ := chain_back h hp.okB (n - (i + 1)) (i + 1) (by omega)
    refine ⟨⟨rfl, hg⟩, a2, b2, fun hm => hp.before (hop_exit hm), ?_, fun hm => hp.sentB (hop_exit (b1.subset hm)), rfl, hx⟩
    have := a1.trans (hop_prefix hp.sentA i)
    rw [hop_end] at this
    exact this
  induction j with
  | zero =>
    rintro i rfl
    exact fill i (by omega) hp.gone.2 hp.rxB
  | succ j ih =>
    intro i hi
    have pi := passInv (hk (i + 1) (by omega)) (ih (i + 1) (by omega))
    exact fill i (by omega) pi.leaveL.gone.2 pi.leaveL.rxB

theorem start_kept : keptAround ({} : Chain.World) = fun _ => {} := rfl

/-- Around each relay there is what `Bridge` says, even if what is before it were to go on receiving. -/
theorem chain_kept {kc : Kind} {kl : Nat → Kind} {n : Nat} {pre : List Message} {w : Chain.World}
    (h : Chain.Reachable kc kl n w) (hp : Spec.Passing pre (w.ends n)) :
    ∀ i < n, Bridge.Reachable (Chain.near kc i) (kl i) (kl (i + 1)) (keptAround w i) := by
  induction h with
  | start => intro i _; rw [start_kept]; exact .start
  | @step w x w' hr hs ih =>
    have hp0 : Spec.Passing pre (w.ends n) := passing_back (chain_ends hs).1 (chain_ends hs).2 hp
    have ih := ih hp0
    have pa : ∀ i < n, Spec.Passing (hop i pre) (keptAround w i) := fun i hi =>
      chain_passing hr hp0 ih (n - i - 1) i (by omega)
    intro i hi
    have ihi := ih i hi
    cases hs with
    | @client ev a hm =>
      by_cases e : i = 0
      · subst e
        have e1 : keptSide (w.link 0).a = (w.link 0).a := kept_same hp0.gone.1 hp0.rxA
        have e2 : keptSide a = a := kept_same (x := a) hp.gone.1 hp.rxA
        have e3 : keptAround (w.set 0 { w.link 0 with a }) 0 =
            { keptAround w 0 with left := { (keptAround w 0).left with a } } := by
          simp only [keptAround, keptLink, set_self, set_other _ _ (show 0 + 1 ≠ 0 by omega), e2]
          rfl
        rw [e3]
        refine .step ihi (.client (ev := ev) ?_)
        change Move kc (kl 0) (keptSide (w.link 0).a) (w.link 0).b ev a
        rw [e1]
        exact hm
      · have : keptAround (w.set 0 { w.link 0 with a }) i = keptAround w i := by
          simp only [keptAround, set_other _ _ e, set_other _ _ (show i + 1 ≠ 0 by omega)]
          rfl
        rw [this]; exact ihi
    | @server ev b hm =>
      by_cases e : i + 1 = n
      · subst e
        have : keptAround (w.set (i + 1) { w.link (i + 1) with b }) i =
            { keptAround w i with right := { (keptAround w i).right with b } } := by
          simp only [keptAround, set_self, set_other _ _ (show i ≠ i + 1 by omega)]
          rfl
        rw [this]
        exact .step ihi (.server hm)
      · have : keptAround (w.set n { w.link n with b }) i = keptAround w i := by
          simp only [keptAround, set_other _ _ e, set_other _ _ (show i ≠ n by omega)]
          rfl
        rw [this]; exact ihi
    | @relay j b hj hm =>
      obtain ⟨⟨e1, e2⟩, h1, h2⟩ := relay_sides hm
      by_cases e : i = j
      · subst e
        have e3 : keptAround (w.put i b) i = { b with left := ⟨keptSide (w.link i).a, b.left.b⟩ } := by
          change b.left.a = (w.link i).a at e1
          simp only [keptAround, keptLink, put_self, put_next, e1]
          simp [Chain.World.put]
        rw [e3]
        refine .step ihi (relay_other hm rfl rfl rfl ?_)
        cases i with
        | zero =>
          change (keptSide (w.link 0).a).closed kc = _
          rw [kept_same (x := (w.link 0).a) hp0.gone.1 hp0.rxA]; rfl
        | succ i => exact kept_closed (ih i (by omega)) (pa i (by omega))
      · by_cases e' : i = j + 1
        · subst e'
          have e3 : keptAround (w.put j b) (j + 1) =
              { keptAround w (j + 1) with left := ⟨keptSide b.right.a, (w.link (j + 1)).b⟩ } := by
            change b.right.b = (w.link (j + 1)).b at e2
            simp only [keptAround, keptLink, put_next, put_other _ _ (show j + 1 + 1 ≠ j by omega) (show j + 1 + 1 ≠ j + 1 by omega),
              e2, hands_put e]
          rw [e3]
          have hj' := ih j (by omega)
          have pi := passInv hj' (pa j (by omega))
          have bi := bridgeInv hj'
          rcases relay_right hm (fun t => pi.downEnd (bi.down.2 (.inl t))) with h3 | ⟨ev, h3⟩
          · rw [h3]; exact ihi
          · exact .step ihi (.client h3)
        · by_cases e'' : i + 1 = j
          · subst e''
            have e3 : keptAround (w.put (i + 1) b) i =
                { keptAround w i with right := { (keptAround w i).right with b := b.left.b } } := by
              simp only [keptAround, put_self, put_other _ _ (show i ≠ i + 1 by omega) (show i ≠ i + 1 + 1 by omega), hands_put e]
              rw [link_b e1]
              rfl
            rw [e3]
            rcases h1 with h1 | ⟨ev, h1⟩
            · rw [h1]; exact ihi
            · exact .step ihi (.server h1)
          · have : keptAround (w.put j b) i = keptAround w i := by
              simp only [keptAround, put_other _ _ e e', put_other _ _ e'' (show i + 1 ≠ j + 1 by omega), hands_put e]
            rw [this]; exact ihi

/-- At rest nothing goes on in any relay, even if what is before it were to go on receiving. -/
theorem chain_still {kc : Kind} {kl : Nat → Kind} {n : Nat} {pre : List Message} {w : Chain.World}
    (h : Chain.Reachable kc kl n w) (hp : Spec.Passing pre (w.ends n)) (hq : Chain.Quiet kc kl n w) {i : Nat} (hi : i < n) :
    Bridge.Still (Chain.near kc i) (kl i) (kl (i + 1)) (keptAround w i) := by
  intro b hb
  have hc : (w.link i).a.closed (Chain.near kc i) = (keptSide (w.link i).a).closed (Chain.near kc i) := by
    cases i with
    | zero => rw [kept_same (x := (w.link 0).a) hp.gone.1 hp.rxA]
    | succ i =>
      have hk := chain_kept h hp
      exact (kept_closed (hk i (by omega)) (chain_passing h hp hk (n - i - 1) i (by omega))).symm
  have := relay_other (y := (w.link i).a) hb rfl rfl rfl hc
  cases hq _ _ (.relay hi this)

/-- At rest every link is at rest, with the receivers of the relays' second connections kept. -/
theorem chain_quiet {kc : Kind} {kl : Nat → Kind} {n : Nat} {pre : List Message} {w : Chain.World}
    (h : Chain.Reachable kc kl n w) (hp : Spec.Passing pre (w.ends n)) (hq : Chain.Quiet kc kl n w) {i : Nat} (hi : i ≤ n) :
    Link.Quiet (Chain.near kc i) (kl i) (keptLink (w.link i)) := by
  have hk := chain_kept h hp
  have pa : ∀ i < n, Spec.Passing (hop i pre) (keptAround w i) := fun i hi =>
    chain_passing h hp hk (n - i - 1) i (by omega)
  intro ev l' hs
  cases hs with
  | left hm =>
    cases i with
    | zero =>
      change Move kc (kl 0) (keptSide (w.link 0).a) _ _ _ at hm
      rw [kept_same (x := (w.link 0).a) hp.gone.1 hp.rxA] at hm
      exact hq _ _ (.client hm)
    | succ i => exact still_right (hk i (by omega)) (pa i (by omega)) (chain_still h hp hq (by omega)) hm
  | right hm =>
    by_cases e : i = n
    · subst e
      refine hq _ _ (.server (move_other hm rfl rfl rfl ?_))
      cases i with
      | zero =>
        change _ = (keptSide (w.link 0).a).closed kc
        rw [kept_same (x := (w.link 0).a) hp.gone.1 hp.rxA]; rfl
      | succ i => exact (kept_closed (hk i (by omega)) (pa i (by omega))).symm
    · exact still_left (hk i (by omega)) (pa i (by omega)) (chain_still h hp hq (by omega)) hm

/-- Every link of the chain leaves. -/
theorem chain_leaving {kc : Kind} {kl : Nat → Kind} {n : Nat} {pre : List Message} {w : Chain.World}
    (h : Chain.Reachable kc kl n w) (hp : Spec.Passing pre (w.ends n)) {i : Nat} (hi : i ≤ n) :
    Link.Reachable (Chain.near kc i) (kl i) (keptLink (w.link i)) ∧ Spec.Leaving (hop i pre) (keptLink (w.link i)) := by
  have hk := chain_kept h hp
  have pa : ∀ i < n, Spec.Passing (hop i pre) (keptAround w i) := fun i hi =>
    chain_passing h hp hk (n - i - 1) i (by omega)
  by_cases e : i < n
  · exact ⟨bridge_left (hk i e), (passInv (hk i e) (pa i e)).leaveL⟩
  · have : i = n := by omega
    subst this
    cases i with
    | zero =>
      have e : keptLink (w.link 0) = w.link 0 := by
        simp only [keptLink, kept_same (x := (w.link 0).a) hp.gone.1 hp.rxA]
      rw [e]
      exact ⟨chain_link h 0 (Nat.le_refl _), hp.gone, hp.okA, hp.okB, hp.before, hp.sentA, hp.sentB, hp.rxA, hp.rxB⟩
    | succ i =>
      have pi := passInv (hk i (by omega)) (pa i (by omega))
      exact ⟨pi.right, pi.leaveR⟩

/-- At rest every relay has passed on all that a client has sent that has sent exit and dropped its sender. -/
theorem chain_up {kc : Kind} {kl : Nat → Kind} {n : Nat} {pre : List Message} {w : Chain.World}
    (h : Chain.Reachable kc kl n w) (hp : Spec.Passing pre (w.ends n))
    (hx : (w.link 0).a.io.accepted = pre ++ [.notification .exit]) (ht : (w.link 0).a.io.txAlive = false)
    (hq : Chain.Quiet kc kl n w) :
    ∀ i ≤ n, (w.link i).a.io.accepted = hop i (w.link 0).a.io.accepted ∧ (w.link i).a.io.txAlive = false := by
  have hk := chain_kept h hp
  have pa : ∀ i < n, Spec.Passing (hop i pre) (keptAround w i) := fun i hi =>
    chain_passing h hp hk (n - i - 1) i (by omega)
  intro i
  induction i with
  | zero => exact fun _ => ⟨rfl, ht⟩
  | succ i ih =>
    intro hi
    obtain ⟨h1, h2⟩ := ih (by omega)
    obtain ⟨hl, lv⟩ := chain_leaving h hp (i := i) (by omega)
    have st := chain_still h hp hq (i := i) (by omega)
    have pi := passInv (hk i (by omega)) (pa i (by omega))
    have h1' : (w.link i).a.io.accepted = hop i pre ++ [.notification .exit] := by rw [h1, hx, hop_end]
    obtain ⟨_, d, x⟩ := leaving_got hl lv h1' h2 (chain_quiet h hp hq (by omega))
    obtain ⟨u1, u2, u3⟩ := (quiet_ended (hk i (by omega)) st).1 (by change (w.link i).b.io.reader.ended = true; change (w.link i).b.io.reader = .done at d; rw [d]; rfl)
    have hu := pi.up
    rw [(quiet_hands (hk i (by omega)) st).1, List.append_nil] at hu
    have hr := (exit_received (link_pair hl) lv.okA lv.before lv.sentA x).2.1
    change (w.link i).b.io.delivered = (w.link i).a.io.accepted.map Spec.heard at hr
    change (w.link i).b.io.delivered = (w.link (i + 1)).a.io.accepted at hu
    exact ⟨by rw [← hu, hr, h1]; rfl, u3⟩

/-- C142: a client and a server that talk through `n` relays.  The client has sent its messages and then exit, the
server has sent what it had to send, both have dropped their senders and go on receiving (the server at least up to
exit).  When nothing can happen any more - and the server has exited, if it uses the standard streams - each of the two has
received everything that the other has sent, all `join`s have returned Ok, those of all relays too, and all relays have
exited. -/
theorem C142_joined {kc : Kind} {kl : Nat → Kind} {n : Nat} {pre : List Message} {w : Chain.World}
    (h : Chain.Reachable kc kl n w) (hp : Spec.Passing pre (w.ends n))
    (hx : (w.link 0).a.io.accepted = pre ++ [.notification .exit])
    (ht : (w.link 0).a.io.txAlive = false ∧ (w.link n).b.io.txAlive = false)
    (hc : kl n = .socket ∨ (w.link n).b.gone = true) (hq : Chain.Quiet kc kl n w) :
    (w.link 0).a.io.delivered = (w.link n).b.io.accepted.map Spec.heard ∧
    (w.link n).b.io.delivered = (w.link 0).a.io.accepted.map Spec.heard ∧
    (∀ i ≤ n, join (Chain.near kc i) (w.link i).a.io = .ok ∧ join (kl i) (w.link i).b.io = .ok) ∧
    ∀ i < n, (w.link i).b.gone = true ∧ (w.link (i + 1)).a.gone = true := by
  have hk := chain_kept h hp
  have pa : ∀ i < n, Spec.Passing (hop i pre) (keptAround w i) := fun i hi =>
    chain_passing h hp hk (n - i - 1) i (by omega)
  have up := chain_up h hp hx ht.1 hq
  -- one link, when both its senders have been dropped
  have one : ∀ i ≤ n, (w.link i).b.io.txAlive = false → (kl i = .socket ∨ (w.link i).b.gone = true) →
      (join (Chain.near kc i) (w.link i).a.io = .ok ∧ (w.link i).a.io.delivered = (w.link i).b.io.accepted.map Spec.heard) ∧
      join (kl i) (w.link i).b.io = .ok ∧ (w.link i).b.io.delivered = (w.link i).a.io.accepted.map Spec.heard := by
    intro i hi t c
    obtain ⟨h1, h2⟩ := up i hi
    obtain ⟨hl, lv⟩ := chain_leaving h hp hi
    have := C92_joined hl lv (by change (w.link i).a.io.accepted = _; rw [h1, hx, hop_end]) ⟨h2, t⟩ c (chain_quiet h hp hq hi)
    exact this
  -- and back
  have back : ∀ j i, i + j = n →
      (w.link i).b.io.accepted = hop j (w.link n).b.io.accepted ∧ (w.link i).b.io.txAlive = false ∧
      (kl i = .socket ∨ (w.link i).b.gone = true) ∧ (i < n → (w.link i).b.gone = true ∧ (w.link (i + 1)).a.gone = true) := by
    intro j
    induction j with
    | zero =>
      intro i hi
      have : i = n := by omega
      subst this
      exact ⟨rfl, ht.2, hc, fun h => absurd h (Nat.lt_irrefl _)⟩
    | succ j ih =>
      intro i hi
      obtain ⟨b1, b2, b3, _⟩ := ih (i + 1) (by omega)
      obtain ⟨⟨jR, rR⟩, _⟩ := one (i + 1) (by omega) b2 b3
      have hki := hk i (by omega)
      have st := chain_still h hp hq (i := i) (by omega)
      have pi := passInv hki (pa i (by omega))
      have bi := bridgeInv hki
      obtain ⟨e1, e2⟩ := quiet_ended hki st
      obtain ⟨v1, v2, v3⟩ := e2 (by change (w.link (i + 1)).a.io.reader.ended = true; rw [(C58_ok_iff.1 jR).1]; rfl)
      have hd := pi.down
      rw [(quiet_hands hki st).2, List.append_nil] at hd
      change (w.link (i + 1)).a.io.delivered = (w.link i).b.io.accepted at hd
      obtain ⟨h1, h2⟩ := up i (by omega)
      obtain ⟨hl, lv⟩ := chain_leaving h hp (i := i) (by omega)
      obtain ⟨_, ⟨dL, _⟩, wL⟩ := leaving_rest hl lv (by change (w.link i).a.io.accepted = _; rw [h1, hx, hop_end]) ⟨h2, v3⟩
        (chain_quiet h hp hq (by omega))
      change (w.link i).b.io.reader = .done at dL
      obtain ⟨u1, u2, u3⟩ := e1 (by change (w.link i).b.io.reader.ended = true; rw [dL]; rfl)
      have jL : join (kl i) (w.link i).b.io = .ok := C58_ok_iff.2 ⟨dL, wL⟩
      have g : (w.link i).b.gone = true := by
        cases g : (w.link i).b.gone with
        | true => rfl
        | false =>
          have aw : (keptAround w i).awake := ⟨g, bi.gone.symm.trans g⟩
          refine absurd (.finish aw u1 v1 u2 v3 v2 u3 ?_ ?_) (st _)
          · change join (kl i) (w.link i).b.io ≠ _; rw [jL]; simp
          · intro _; change join .socket (w.link (i + 1)).a.io ≠ _
            have jR : join .socket (w.link (i + 1)).a.io = .ok := jR
            rw [jR]; simp
      exact ⟨by rw [← hd, rR, b1]; rfl, v3, .inr g, fun _ => ⟨g, bi.gone.symm.trans g⟩⟩
  have ends : ∀ i ≤ n, _ := fun i hi => one i hi (back (n - i) i (by omega)).2.1 (back (n - i) i (by omega)).2.2.1
  refine ⟨?_, ?_, fun i hi => ⟨(ends i hi).1.1, (ends i hi).2.1⟩, fun i hi => (back (n - i) i (by omega)).2.2.2 hi⟩
  · rw [(ends 0 (Nat.zero_le _)).1.2, (back n 0 (by omega)).1, ← hop_heard (ms := (w.link n).b.io.accepted) hp.okB n]; rfl
  · rw [(ends n (Nat.le_refl _)).2.2, (up n (Nat.le_refl _)).1, ← hop_heard (ms := (w.link 0).a.io.accepted) hp.okA n]; rfl

/-- When nothing can happen any more on a connection, and exit has not been sent, each side has received everything that
the other has sent. -/
theorem link_drained {ka kb : Kind} {pre : List Message} {l : Link} (hr : Link.Reachable ka kb l)
    (h : Spec.Leaving pre l) (hx : Message.notification .exit ∉ l.a.io.accepted) (hq : Link.Quiet ka kb l) :
    l.b.io.delivered = l.a.io.accepted.map Spec.heard ∧ l.a.io.delivered = l.b.io.accepted.map Spec.heard := by
  have hi := leaveInv hr h
  obtain ⟨rA, rB⟩ := leave_reader hr h hi
  have hp := link_pair hr
  obtain ⟨p1, p2, p3, p4⟩ := pair_inv hp
  have gA := h.gone.1
  have no : ∀ {ev l'}, ev.app = false → ¬ LinkStep ka kb l ev l' := by
    intro ev l' h1 h2
    have := hq _ _ h2
    rw [h1] at this; cases this
  have hnx : Message.notification .exit ∉ l.b.io.delivered := by
    intro hd
    obtain ⟨m, hm, he⟩ := List.mem_map.1 ((C56_heard hp h.okA).subset hd)
    rw [heard_exit he] at hm
    exact hx hm
  have eB : l.b.io.reader.ended = false := by
    cases e : l.b.io.reader.ended with
    | false => rfl
    | true => exact absurd (rB e).2 hnx
  have gB : l.b.gone = false := by
    cases g : l.b.gone with
    | false => rfl
    | true => have := (h.gone.2 g).1; rw [eB] at this; cases this
  have cB : l.b.closed kb = false := by cases kb <;> simp [Side.closed, gB, eB]
  have rxB : l.b.io.rxAlive = true := h.rxB.resolve_right hnx
  have inB : l.b.io.inEnd = none := by
    cases e : l.b.io.inEnd with
    | none => rfl
    | some b => exact absurd (hi.inB (by simp [e])) hnx
  have inA : l.a.io.inEnd = none := by
    rcases hi.inA with h1 | ⟨_, h1, _⟩
    · exact h1
    · rw [cB] at h1; cases h1
  have eA : l.a.io.reader.ended = false := by
    cases e : l.a.io.reader.ended with
    | false => rfl
    | true => have := (rA e).2.2; rw [cB] at this; cases this
  have wA : l.a.io.writer = .idle ∨ l.a.io.writer = .done := by
    cases e : l.a.io.writer with
    | idle => exact .inl rfl
    | done => exact .inr rfl
    | writing r =>
      exfalso
      cases r with
      | nil => exact no rfl (.left (.own gA (.written _ e) (by simp) (by simp) (by simp)))
      | cons c r => exact no rfl (.left (.own gA (.write _ [c] r e (by simp)) (by simp) (by simp) (by simp)))
    | failed => exact absurd e hi.wA.1
    | panicked => exact absurd e hi.wA.2
  have wB : l.b.io.writer = .idle ∨ l.b.io.writer = .done := by
    cases e : l.b.io.writer with
    | idle => exact .inl rfl
    | done => exact .inr rfl
    | writing r =>
      exfalso
      cases r with
      | nil => exact no rfl (.right (.own gB (.written _ e) (by simp) (by simp) (by simp)))
      | cons c r => exact no rfl (.right (.own gB (.write _ [c] r e (by simp)) (by simp) (by simp) (by simp)))
    | failed => exact absurd e hi.wB.1
    | panicked => exact absurd e hi.wB.2
  have out : ∀ {k : Kind} {s : State}, Transport.Reachable k s → s.writer = .idle ∨ s.writer = .done →
      s.out = s.accepted.flatMap Frame.write := by
    intro k s hs hw
    have := writeInv hs
    rcases hw with hw | hw <;> simp only [WriteInv, hw] at this <;> first | exact this | exact this.1
  constructor
  · have arr : l.b.io.arrived = l.a.io.out := by
      obtain ⟨t, ht⟩ := p3
      by_cases hne : t = []
      · rw [hne, List.append_nil] at ht; exact ht
      · exact absurd (.right (.arrive gB hne (by rw [← ht]; exact List.prefix_refl _) (.arrive _ t inB))) (no rfl)
    cases e : l.b.io.reader with
    | sending m => exact absurd (.right (.own gB (.deliver _ m e rxB) (by simp) (by simp) (by simp))) (no rfl)
    | reading =>
      exact C56_heard_all hp h.okA (arr.trans (out p1 wA)) e (by
        rintro ⟨s', hs'⟩
        exact no rfl (.right (.own gB hs' (by simp) (by simp) (by simp))))
    | _ => simp [e, Reader.ended] at eB
  · have arr : l.a.io.arrived = l.b.io.out := by
      obtain ⟨t, ht⟩ := p4
      by_cases hne : t = []
      · rw [hne, List.append_nil] at ht; exact ht
      · exact absurd (.left (.arrive gA hne (by rw [← ht]; exact List.prefix_refl _) (.arrive _ t inA))) (no rfl)
    cases e : l.a.io.reader with
    | sending m => exact absurd (.left (.own gA (.deliver _ m e h.rxA) (by simp) (by simp) (by simp))) (no rfl)
    | reading =>
      exact C56_heard_all (pair_swap hp) h.okB (arr.trans (out p2 wB)) e (by
        rintro ⟨s', hs'⟩
        exact no rfl (.left (.own gA hs' (by simp) (by simp) (by simp))))
    | _ => simp [e, Reader.ended] at eA

/-- At rest, when exit has not been sent, everything has got to the other side of its link, and from there to the next. -/
theorem chain_drained {kc : Kind} {kl : Nat → Kind} {n : Nat} {pre : List Message} {w : Chain.World}
    (h : Chain.Reachable kc kl n w) (hp : Spec.Passing pre (w.ends n))
    (hx : Message.notification .exit ∉ (w.link 0).a.io.accepted) (hq : Chain.Quiet kc kl n w) :
    (∀ i ≤ n, (w.link i).b.io.delivered = (w.link i).a.io.accepted.map Spec.heard ∧
      (w.link i).a.io.delivered = (w.link i).b.io.accepted.map Spec.heard) ∧
    (∀ i < n, (w.link i).b.io.delivered = (w.link (i + 1)).a.io.accepted ∧
      (w.link (i + 1)).a.io.delivered = (w.link i).b.io.accepted) ∧
    ∀ i ≤ n, (w.link i).a.io.accepted = hop i (w.link 0).a.io.accepted := by
  have hk := chain_kept h hp
  have pa : ∀ i < n, Spec.Passing (hop i pre) (keptAround w i) := fun i hi =>
    chain_passing h hp hk (n - i - 1) i (by omega)
  have one : ∀ i ≤ n, (w.link i).b.io.delivered = (w.link i).a.io.accepted.map Spec.heard ∧
      (w.link i).a.io.delivered = (w.link i).b.io.accepted.map Spec.heard := by
    intro i hi
    obtain ⟨hl, lv⟩ := chain_leaving h hp hi
    exact link_drained (l := keptLink (w.link i)) hl lv
      (fun hm => hx (hop_exit ((chain_sent h hp.okA i hi).1.subset hm))) (chain_quiet h hp hq hi)
  have hand : ∀ i < n, (w.link i).b.io.delivered = (w.link (i + 1)).a.io.accepted ∧
      (w.link (i + 1)).a.io.delivered = (w.link i).b.io.accepted := by
    intro i hi
    have st := chain_still h hp hq hi
    have pi := passInv (hk i hi) (pa i hi)
    obtain ⟨q1, q2⟩ := quiet_hands (hk i hi) st
    have hu := pi.up
    have hd := pi.down
    rw [q1, List.append_nil] at hu
    rw [q2, List.append_nil] at hd
    exact ⟨hu, hd⟩
  refine ⟨one, hand, fun i => ?_⟩
  induction i with
  | zero => intro _; rfl
  | succ i ih => intro hi; rw [← (hand i (by omega)).1, (one i (by omega)).1, ih (by omega)]; rfl

/-- C142: as long as exit has not been sent, and client and server go on receiving: whenever nothing can happen any more
without one of the two programs, each of them has received everything that the other has sent, through all the relays, and
nothing of it is left anywhere on the way. -/
theorem C142_rest {kc : Kind} {kl : Nat → Kind} {n : Nat} {pre : List Message} {w : Chain.World}
    (h : Chain.Reachable kc kl n w) (hp : Spec.Passing pre (w.ends n))
    (hx : Message.notification .exit ∉ (w.link 0).a.io.accepted) (hq : Chain.Quiet kc kl n w) :
    (w.link 0).a.io.delivered = (w.link n).b.io.accepted.map Spec.heard ∧
    (w.link n).b.io.delivered = (w.link 0).a.io.accepted.map Spec.heard ∧
    (∀ i ≤ n, (w.link i).b.io.delivered = (w.link i).a.io.accepted.map Spec.heard ∧
      (w.link i).a.io.delivered = (w.link i).b.io.accepted.map Spec.heard) ∧
    ∀ i < n, (w.link (i + 1)).a.io.accepted = (w.link i).b.io.delivered ∧
      (w.link i).b.io.accepted = (w.link (i + 1)).a.io.delivered := by
  obtain ⟨one, hand, up⟩ := chain_drained h hp hx hq
  have back : ∀ j i, i + j = n → (w.link i).b.io.accepted = hop j (w.link n).b.io.accepted := by
    intro j
    induction j with
    | zero => rintro i rfl; rfl
    | succ j ih => intro i hi; rw [← (hand i (by omega)).2, (one (i + 1) (by omega)).2, ih (i + 1) (by omega)]; rfl
  refine ⟨?_, ?_, one, fun i hi => ⟨(hand i hi).1.symm, (hand i hi).2.symm⟩⟩
  · rw [(one 0 (Nat.zero_le _)).2, back n 0 (by omega), ← hop_heard (ms := (w.link n).b.io.accepted) hp.okB n]; rfl
  · rw [(one n (Nat.le_refl _)).1, up n (Nat.le_refl _), ← hop_heard (ms := (w.link 0).a.io.accepted) hp.okA n]; rfl

/-! ### Coming to rest -/

/-- What is left to do with the last message that relay `i - 1` has in its upper hand, and to end this thread.
Proof helper for bsp-server/src/lib.rs:37-40. -/
def upExtra (w : Chain.World) : Nat → Nat
  | 0 => 0
  | i + 1 => (w.up i).left + ((w.link i).b.io.rxAlive.toNat + (w.link (i + 1)).a.io.txAlive.toNat) + (!(w.link i).b.gone).toNat

/-- What is left to do on link `i` towards the server. Proof helper for bsp-server/src/transporter.rs:14-80. -/
def upWork (w : Chain.World) (i : Nat) : Nat := wayLeft (w.link i).a (w.link i).b + upExtra w i

/-- What is left to do on link `i` towards the client. Proof helper for bsp-server/src/transporter.rs:14-80. -/
def downWork (w : Chain.World) (i : Nat) : Nat :=
  wayLeft (w.link i).b (w.link i).a +
    ((w.down i).left + ((w.link (i + 1)).a.io.rxAlive.toNat + (w.link i).b.io.txAlive.toNat))

/-- What is left to do `i` hops from the ends. Proof helper for bsp-server/src/transporter.rs:14-80. -/
def hopWork (n : Nat) (w : Chain.World) (i : Nat) : Nat := upWork w i + downWork w (n - i)

/-- What a step of a relay leaves to do before it and after it, in both directions. -/
theorem relay_work {kc kl ks : Kind} {w w' : Bridge.World} (h : Bridge.Reachable kc kl ks w)
    (hs : Bridge.Next kc kl ks w .relay w') :
    let uL := fun w : Bridge.World => wayLeft w.left.a w.left.b
    let uR := fun w : Bridge.World => wayLeft w.right.a w.right.b +
      (w.up.left + (w.left.b.io.rxAlive.toNat + w.right.a.io.txAlive.toNat) + (!w.left.b.gone).toNat)
    let dR := fun w : Bridge.World => wayLeft w.right.b w.right.a
    let dL := fun w : Bridge.World => wayLeft w.left.b w.left.a +
      (w.down.left + (w.right.a.io.rxAlive.toNat + w.left.b.io.txAlive.toNat))
    ((uL w' < uL w ∨ uL w' = uL w ∧ uR w' < uR w) ∧ dR w' = dR w ∧ dL w' = dL w) ∨
    ((dR w' < dR w ∨ dR w' = dR w ∧ dL w' < dL w) ∧ uL w' = uL w ∧ uR w' = uR w) := by
  obtain ⟨_, _, l1, l2⟩ := pair_inv (link_pair (bridge_left h))
  obtain ⟨_, _, r1, r2⟩ := pair_inv (link_pair (bridge_right h))
  simp only at l1 l2 r1 r2
  cases hs with
  | near hm ha _ =>
    obtain ⟨k1, _, k2, k3⟩ := move_keeps hm ha
    simp only [k1, k2, k3]
    rcases move_way hm ha l1 l2 with ⟨e1, e2⟩ | ⟨e1, e2⟩
    · exact .inr ⟨.inr ⟨trivial, Nat.add_lt_add_right e1 _⟩, e2, trivial⟩
    · exact .inl ⟨.inl e2, trivial, congrArg (· + _) e1⟩
  | far hm ha _ =>
    obtain ⟨k1, _, k2, k3⟩ := move_keeps hm ha
    simp only [k2, k3]
    rcases move_way hm ha r2 r1 with ⟨e1, e2⟩ | ⟨e1, e2⟩
    · exact .inl ⟨.inr ⟨trivial, Nat.add_lt_add_right e1 _⟩, e2, trivial⟩
    · exact .inr ⟨.inl e2, trivial, congrArg (· + _) e1⟩
  | up ha hc =>
    obtain ⟨⟨_, e2⟩, _, e4⟩ := carry_other hc
    obtain ⟨g1, g2⟩ := carry_gone hc
    obtain ⟨c1, c2, c3⟩ := carry_work hc
    simp only [e2, e4, g1]
    have a1 := c1 w.left.a
    have a2 := c2 w.right.b
    left
    rcases c3 with c3 | ⟨c3, c4⟩
    · have a3 := c3 w.left.a
      omega
    · have a3 := c3 w.left.a
      have a4 := c4 w.right.b
      omega
  | down ha hc =>
    obtain ⟨⟨_, e2⟩, _, e4⟩ := carry_other hc
    obtain ⟨g1, g2⟩ := carry_gone hc
    obtain ⟨c1, c2, c3⟩ := carry_work hc
    simp only [e2, e4, g2]
    have a1 := c1 w.right.b
    have a2 := c2 w.left.a
    right
    rcases c3 with c3 | ⟨c3, c4⟩
    · have a3 := c3 w.right.b
      omega
    · have a3 := c3 w.right.b
      have a4 := c4 w.left.a
      omega
  | finish ha _ _ _ _ _ _ _ _ =>
    left
    have e : ∀ y, wayLeft { w.left.b with gone := true } y = wayLeft w.left.b y := fun _ => rfl
    have e' : ∀ y, wayLeft { w.right.a with gone := true } y = wayLeft w.right.a y := fun _ => rfl
    have e3 : ∀ y, wayLeft y { w.left.b with gone := true } = wayLeft y w.left.b := fun _ => rfl
    have e4 : ∀ y, wayLeft y { w.right.a with gone := true } = wayLeft y w.right.a := fun _ => rfl
    simp only [e, e', e3, e4, ha.1]
    simp

/-- Less to do: at some hop, and at the hops before it nothing has changed. Proof helper for bsp-server/src/transporter.rs:14-80. -/
def Sooner (n : Nat) (g' g : Nat → Nat) : Prop := ∃ i ≤ n, g' i < g i ∧ ∀ j < i, g' j = g j

theorem sooner_wf : ∀ n, WellFounded (Sooner n)
  | 0 => by
    refine Subrelation.wf (r := InvImage (· < ·) (fun g : Nat → Nat => g 0)) ?_ (InvImage.wf _ Nat.lt_wfRel.wf)
    rintro g' g ⟨i, hi, h, _⟩
    have : i = 0 := by omega
    subst this
    exact h
  | n + 1 => by
    refine Subrelation.wf (r := InvImage (Prod.Lex (· < ·) (Sooner n)) (fun g : Nat → Nat => (g 0, fun j => g (j + 1)))) ?_
      (InvImage.wf _ (Prod.lex ⟨_, Nat.lt_wfRel.wf⟩ ⟨_, sooner_wf n⟩).wf)
    rintro g' g ⟨i, hi, h, hj⟩
    cases i with
    | zero => exact Prod.Lex.left _ _ h
    | succ i =>
      have e := hj 0 (by omega)
      show Prod.Lex _ _ (g' 0, _) (g 0, _)
      rw [e]
      exact Prod.Lex.right _ ⟨i, by omega, h, fun j h' => hj (j + 1) (by omega)⟩

theorem sooner_up {n : Nat} {w w' : Chain.World} {i : Nat} (hi : i ≤ n) (h : upWork w' i < upWork w i)
    (hu : ∀ j < i, upWork w' j = upWork w j) (hd : ∀ j ≤ n, downWork w' j = downWork w j) :
    Sooner n (hopWork n w') (hopWork n w) := by
  refine ⟨i, hi, ?_, fun j hj => ?_⟩
  · simp only [hopWork, hd (n - i) (by omega)]; omega
  · simp only [hopWork, hd (n - j) (by omega), hu j hj]

theorem sooner_down {n : Nat} {w w' : Chain.World} {i : Nat} (hi : i ≤ n) (h : downWork w' i < downWork w i)
    (hd : ∀ j ≤ n, i < j → downWork w' j = downWork w j) (hu : ∀ j ≤ n, upWork w' j = upWork w j) :
    Sooner n (hopWork n w') (hopWork n w) := by
  refine ⟨n - i, by omega, ?_, fun j hj => ?_⟩
  · have : n - (n - i) = i := by omega
    simp only [hopWork, hu (n - i) (by omega), this]; omega
  · simp only [hopWork, hd (n - j) (by omega) (by omega), hu j (by omega)]

/-- Less to do towards the server and no change on the way back, or less to do on the way back and no change
towards the server. Proof helper for bsp-server/src/transporter.rs:14-80. -/
def Ahead (n : Nat) (w w' : Chain.World) : Prop :=
  (∃ i ≤ n, upWork w' i < upWork w i ∧ (∀ j < i, upWork w' j = upWork w j) ∧ ∀ j ≤ n, downWork w' j = downWork w j) ∨
  (∃ i ≤ n, downWork w' i < downWork w i ∧ (∀ j ≤ n, i < j → downWork w' j = downWork w j) ∧
    ∀ j ≤ n, upWork w' j = upWork w j)

theorem ahead_up {n : Nat} {w w' : Chain.World} {i : Nat} (hi : i ≤ n) (h : upWork w' i < upWork w i)
    (hu : ∀ j < i, upWork w' j = upWork w j) (hd : ∀ j ≤ n, downWork w' j = downWork w j) : Ahead n w w' :=
  .inl ⟨i, hi, h, hu, hd⟩

theorem ahead_down {n : Nat} {w w' : Chain.World} {i : Nat} (hi : i ≤ n) (h : downWork w' i < downWork w i)
    (hd : ∀ j ≤ n, i < j → downWork w' j = downWork w j) (hu : ∀ j ≤ n, upWork w' j = upWork w j) : Ahead n w w' :=
  .inr ⟨i, hi, h, hd, hu⟩

/-- Every step but those of the two programs leaves less to do. -/
theorem chain_way {kc : Kind} {kl : Nat → Kind} {n : Nat} {w w' : Chain.World} {x : Who} (h : Chain.Reachable kc kl n w)
    (hs : Chain.Next kc kl n w x w') (hf : x.free = false) : Ahead n w w' := by
  cases hs with
  | @client ev a hm =>
    obtain ⟨_, _, l1, l2⟩ := pair_inv (link_pair (chain_link h 0 (Nat.zero_le _)))
    obtain ⟨k1, _, k2, k3⟩ := move_keeps hm hf
    have u : ∀ j, j ≠ 0 → upWork (w.set 0 { w.link 0 with a }) j = upWork w j := by
      intro j hj
      cases j with
      | zero => exact absurd rfl hj
      | succ j =>
        simp only [upWork, upExtra, set_other _ _ hj]
        by_cases e : j = 0
        · subst e; rw [set_self]; rfl
        · rw [set_other _ _ e]; rfl
    have d : ∀ j, j ≠ 0 → downWork (w.set 0 { w.link 0 with a }) j = downWork w j := by
      intro j hj
      simp only [downWork, set_other _ _ hj, set_other _ _ (show j + 1 ≠ 0 by omega)]
      rfl
    have u0 : upWork (w.set 0 { w.link 0 with a }) 0 = wayLeft a (w.link 0).b := by
      simp only [upWork, upExtra, set_self]; rfl
    have d0 : downWork (w.set 0 { w.link 0 with a }) 0 = wayLeft (w.link 0).b a +
        ((w.down 0).left + ((w.link 1).a.io.rxAlive.toNat + (w.link 0).b.io.txAlive.toNat)) := by
      simp only [downWork, set_self, set_other _ _ (show 0 + 1 ≠ 0 by omega)]; rfl
    rcases move_way hm hf l2 l1 with ⟨e1, e2⟩ | ⟨e1, e2⟩
    · refine ahead_up (i := 0) (Nat.zero_le _) ?_ (by simp) fun j _ => ?_
      · rw [u0]; exact e1
      · by_cases e : j = 0
        · subst e; rw [d0, e2]; rfl
        · exact d j e
    · refine ahead_down (i := 0) (Nat.zero_le _) ?_ (fun j _ hj => d j (by omega)) fun j _ => ?_
      · rw [d0]; simp only [downWork, Nat.zero_add]; omega
      · by_cases e : j = 0
        · subst e; rw [u0, e1]; rfl
        · exact u j e
  | @server ev b hm =>
    obtain ⟨_, _, r1, r2⟩ := pair_inv (link_pair (chain_link h n (Nat.le_refl _)))
    obtain ⟨k1, _, k2, k3⟩ := move_keeps hm hf
    have u : ∀ j < n, upWork (w.set n { w.link n with b }) j = upWork w j := by
      intro j hj
      cases j with
      | zero => simp only [upWork, upExtra, set_other _ _ (show 0 ≠ n by omega)]
      | succ j =>
        simp only [upWork, upExtra, set_other _ _ (show j + 1 ≠ n by omega), set_other _ _ (show j ≠ n by omega)]
        rfl
    have d : ∀ j < n, downWork (w.set n { w.link n with b }) j = downWork w j := by
      intro j hj
      simp only [downWork, set_other _ _ (show j ≠ n by omega)]
      by_cases e : j + 1 = n
      · subst e; rw [set_self]; rfl
      · rw [set_other _ _ e]; rfl
    have u0 : upWork (w.set n { w.link n with b }) n = wayLeft (w.link n).a b + upExtra w n := by
      simp only [upWork, set_self]
      cases n with
      | zero => rfl
      | succ n => simp only [upExtra, set_self, set_other _ _ (show n ≠ n + 1 by omega)]; rfl
    have d0 : downWork (w.set n { w.link n with b }) n = wayLeft b (w.link n).a +
        ((w.down n).left + ((w.link (n + 1)).a.io.rxAlive.toNat + (w.link n).b.io.txAlive.toNat)) := by
      simp only [downWork, set_self, set_other _ _ (show n + 1 ≠ n by omega), k3]; rfl
    rcases move_way hm hf r1 r2 with ⟨e1, e2⟩ | ⟨e1, e2⟩
    · refine ahead_down (i := n) (Nat.le_refl _) ?_ (fun j h1 h2 => by omega) fun j hj => ?_
      · rw [d0]; simp only [downWork]; omega
      · by_cases e : j = n
        · subst e; rw [u0, e2]; rfl
        · exact u j (by omega)
    · refine ahead_up (i := n) (Nat.le_refl _) ?_ u fun j hj => ?_
      · rw [u0]; simp only [upWork]; omega
      · by_cases e : j = n
        · subst e; rw [d0, e1]; rfl
        · exact d j (by omega)
  | @relay i b hi hm =>
    obtain ⟨⟨e1, e2⟩, _, _⟩ := relay_sides hm
    change b.left.a = (w.link i).a at e1
    change b.right.b = (w.link (i + 1)).b at e2
    have key := relay_work (chain_around h i hi) hm
    simp only at key
    have u : ∀ j, j ≠ i → j ≠ i + 1 → upWork (w.put i b) j = upWork w j := by
      intro j h1 h2
      cases j with
      | zero => simp only [upWork, upExtra, put_other _ _ h1 h2]
      | succ j =>
        simp only [upWork, upExtra, put_other _ _ h1 h2, hands_put (show j ≠ i by omega)]
        by_cases e : j = i + 1
        · subst e; rw [put_next, e2]
        · rw [put_other _ _ (by omega) e]
    have d : ∀ j, j ≠ i → j ≠ i + 1 → downWork (w.put i b) j = downWork w j := by
      intro j h1 h2
      simp only [downWork, put_other _ _ h1 h2, hands_put h1]
      by_cases e : j + 1 = i
      · subst e; rw [put_self, e1]
      · rw [put_other _ _ e (by omega)]
    have u0 : upWork (w.put i b) i = wayLeft b.left.a b.left.b + upExtra w i := by
      simp only [upWork, put_self]
      cases i with
      | zero => rfl
      | succ i =>
        simp only [upExtra, put_self, put_other _ _ (show i ≠ i + 1 by omega) (show i ≠ i + 1 + 1 by omega),
          hands_put (show i ≠ i + 1 by omega), e1]
    have u1 : upWork (w.put i b) (i + 1) = wayLeft b.right.a b.right.b +
        (b.up.left + (b.left.b.io.rxAlive.toNat + b.right.a.io.txAlive.toNat) + (!b.left.b.gone).toNat) := by
      simp only [upWork, upExtra, put_self, put_next]
      simp [Chain.World.put]
    have d0 : downWork (w.put i b) i = wayLeft b.left.b b.left.a +
        (b.down.left + (b.right.a.io.rxAlive.toNat + b.left.b.io.txAlive.toNat)) := by
      simp only [downWork, put_self, put_next]
      simp [Chain.World.put]
    have d1 : downWork (w.put i b) (i + 1) = wayLeft b.right.b b.right.a +
        ((w.down (i + 1)).left + ((w.link (i + 1 + 1)).a.io.rxAlive.toNat + (w.link (i + 1)).b.io.txAlive.toNat)) := by
      simp only [downWork, put_next, put_other _ _ (show i + 1 + 1 ≠ i by omega) (show i + 1 + 1 ≠ i + 1 by omega),
        hands_put (show i + 1 ≠ i by omega), e2]
    have v0 : upWork w i = wayLeft (w.around i).left.a (w.around i).left.b + upExtra w i := rfl
    have v1 : upWork w (i + 1) = wayLeft (w.around i).right.a (w.around i).right.b + ((w.around i).up.left +
        ((w.around i).left.b.io.rxAlive.toNat + (w.around i).right.a.io.txAlive.toNat) + (!(w.around i).left.b.gone).toNat) := rfl
    have w0 : downWork w i = wayLeft (w.around i).left.b (w.around i).left.a + ((w.around i).down.left +
        ((w.around i).right.a.io.rxAlive.toNat + (w.around i).left.b.io.txAlive.toNat)) := rfl
    have w1 : downWork w (i + 1) = wayLeft (w.around i).right.b (w.around i).right.a +
        ((w.down (i + 1)).left + ((w.link (i + 1 + 1)).a.io.rxAlive.toNat + (w.link (i + 1)).b.io.txAlive.toNat)) := rfl
    have both : ∀ {f g : Nat → Nat}, (∀ j, j ≠ i → j ≠ i + 1 → f j = g j) → f i = g i → f (i + 1) = g (i + 1) → ∀ j, f j = g j := by
      intro f g h1 h2 h3 j
      by_cases a : j = i
      · rw [a, h2]
      · by_cases a' : j = i + 1
        · rw [a', h3]
        · exact h1 j a a'
    rcases key with ⟨k, k1, k2⟩ | ⟨k, k1, k2⟩
    · have dd : ∀ j, downWork (w.put i b) j = downWork w j := both d (by omega) (by omega)
      rcases k with k | ⟨k, k'⟩
      · exact ahead_up (i := i) (by omega) (by omega) (fun j hj => u j (by omega) (by omega)) fun j _ => dd j
      · refine ahead_up (i := i + 1) (by omega) (by omega) (fun j hj => ?_) fun j _ => dd j
        by_cases a : j = i
        · subst a; omega
        · exact u j a (by omega)
    · have uu : ∀ j, upWork (w.put i b) j = upWork w j := both u (by omega) (by omega)
      rcases k with k | ⟨k, k'⟩
      · exact ahead_down (i := i + 1) (by omega) (by omega) (fun j _ hj => d j (by omega) (by omega)) fun j _ => uu j
      · refine ahead_down (i := i) (by omega) (by omega) (fun j _ hj => ?_) fun j _ => uu j
        by_cases a : j = i + 1
        · subst a; omega
        · exact d j (by omega) a

theorem chain_work {kc : Kind} {kl : Nat → Kind} {n : Nat} {w w' : Chain.World} {x : Who} (h : Chain.Reachable kc kl n w)
    (hs : Chain.Next kc kl n w x w') (hf : x.free = false) : Sooner n (hopWork n w') (hopWork n w) := by
  rcases chain_way h hs hf with ⟨i, h1, h2, h3, h4⟩ | ⟨i, h1, h2, h3, h4⟩
  · exact sooner_up h1 h2 h3 h4
  · exact sooner_down h1 h2 h3 h4

/-- A run in which the client's and the server's program only receive.
Executions of bsp-server/src/transporter.rs:14-80 in `n + 2` processes. -/
inductive Chain.Runs (kc : Kind) (kl : Nat → Kind) (n : Nat) : Chain.World → Chain.World → Prop
  | nil (w) : Runs kc kl n w w
  | snoc {w w' x w''} : Runs kc kl n w w' → Chain.Next kc kl n w' x w'' → x.free = false → Runs kc kl n w w''

theorem chain_runs {kc : Kind} {kl : Nat → Kind} {n : Nat} {w w' : Chain.World} (h : Chain.Runs kc kl n w w')
    (hr : Chain.Reachable kc kl n w) : Chain.Reachable kc kl n w' := by
  induction h with
  | nil => exact hr
  | snoc _ hs _ ih => exact .step ih hs

/-- C142: as long as the client's and the server's program only receive, nothing can go on for ever in a chain of relays, and
there is a run to a state where nothing can happen any more. -/
theorem C142_settles {kc : Kind} {kl : Nat → Kind} {n : Nat} {w : Chain.World} (h : Chain.Reachable kc kl n w) :
    (¬ ∃ f : Nat → Chain.World, f 0 = w ∧ ∀ k, ∃ x, Chain.Next kc kl n (f k) x (f (k + 1)) ∧ x.free = false) ∧
    ∃ w', Chain.Runs kc kl n w w' ∧ Chain.Quiet kc kl n w' := by
  constructor
  · rintro ⟨f, h0, hf⟩
    have hr : ∀ k, Chain.Reachable kc kl n (f k) := by
      intro k
      induction k with
      | zero => rw [h0]; exact h
      | succ k ih =>
        obtain ⟨x, h1, _⟩ := hf k
        exact .step ih h1
    have : ∀ g, ∀ k, hopWork n (f k) = g → False := by
      intro g
      induction g using (sooner_wf n).induction with
      | _ g ih =>
        rintro k rfl
        obtain ⟨x, h1, h2⟩ := hf k
        exact ih _ (chain_work (hr k) h1 h2) (k + 1) rfl
    exact this _ 0 rfl
  · suffices ∀ g w', hopWork n w' = g → Chain.Runs kc kl n w w' →
        ∃ w', Chain.Runs kc kl n w w' ∧ Chain.Quiet kc kl n w' from this _ w rfl (.nil w)
    intro g
    induction g using (sooner_wf n).induction with
    | _ g ih =>
      rintro w' rfl hr
      by_cases hq : Chain.Quiet kc kl n w'
      · exact ⟨w', hr, hq⟩
      · unfold Chain.Quiet at hq
        simp only [Classical.not_forall, Bool.not_eq_true] at hq
        obtain ⟨x, w'', hs, hf⟩ := hq
        exact ih _ (chain_work (chain_runs hr h) hs hf) w'' rfl (.snoc hr hs hf)

/-- What only the client's and the server's program can change, and what does not get lost. -/
theorem chain_kept_ends {kc : Kind} {kl : Nat → Kind} {n : Nat} {w w' : Chain.World} (h : Chain.Runs kc kl n w w') :
    ((w'.link 0).a.gone = (w.link 0).a.gone ∧ (w'.link 0).a.io.accepted = (w.link 0).a.io.accepted ∧
      (w'.link 0).a.io.rxAlive = (w.link 0).a.io.rxAlive ∧ (w'.link 0).a.io.txAlive = (w.link 0).a.io.txAlive) ∧
    ((w'.link n).b.gone = (w.link n).b.gone ∧ (w'.link n).b.io.accepted = (w.link n).b.io.accepted ∧
      (w'.link n).b.io.rxAlive = (w.link n).b.io.rxAlive ∧ (w'.link n).b.io.txAlive = (w.link n).b.io.txAlive) ∧
    (w.link n).b.io.delivered <+: (w'.link n).b.io.delivered ∧
    ((w.link n).b.io.reader.ended = true ∧ (w.link n).b.io.writer.ended = true →
      (w'.link n).b.io.reader.ended = true ∧ (w'.link n).b.io.writer.ended = true) := by
  induction h with
  | nil => exact ⟨⟨rfl, rfl, rfl, rfl⟩, ⟨rfl, rfl, rfl, rfl⟩, List.prefix_refl _, id⟩
  | @snoc w' x w'' _ hs hf ih =>
    obtain ⟨⟨a1, a2, a3, a4⟩, ⟨b1, b2, b3, b4⟩, hd, he⟩ := ih
    have hA : (w''.link 0).a.gone = (w'.link 0).a.gone ∧ (w''.link 0).a.io.accepted = (w'.link 0).a.io.accepted ∧
        (w''.link 0).a.io.rxAlive = (w'.link 0).a.io.rxAlive ∧ (w''.link 0).a.io.txAlive = (w'.link 0).a.io.txAlive := by
      cases hs with
      | client hm => rw [set_self]; exact move_keeps hm hf
      | server hm =>
        by_cases e : 0 = n
        · subst e; rw [set_self]; exact ⟨rfl, rfl, rfl, rfl⟩
        · rw [set_other _ _ e]; exact ⟨rfl, rfl, rfl, rfl⟩
      | @relay j b hj hm =>
        have e : ((w'.put j b).link 0).a = (w'.link 0).a := by
          by_cases e : 0 = j
          · subst e; rw [put_self]; exact (relay_sides hm).1.1
          · rw [put_other _ _ e (by omega)]
        rw [e]; exact ⟨rfl, rfl, rfl, rfl⟩
    have hB : ((w''.link n).b.gone = (w'.link n).b.gone ∧ (w''.link n).b.io.accepted = (w'.link n).b.io.accepted ∧
        (w''.link n).b.io.rxAlive = (w'.link n).b.io.rxAlive ∧ (w''.link n).b.io.txAlive = (w'.link n).b.io.txAlive) ∧
        Grows (w'.link n).b (w''.link n).b := by
      cases hs with
      | client hm =>
        by_cases e : n = 0
        · subst e; rw [set_self]; exact ⟨⟨rfl, rfl, rfl, rfl⟩, grows_refl _⟩
        · rw [set_other _ _ e]; exact ⟨⟨rfl, rfl, rfl, rfl⟩, grows_refl _⟩
      | server hm => rw [set_self]; exact ⟨move_keeps hm hf, move_grows hm⟩
      | @relay j b hj hm =>
        have e : ((w'.put j b).link n).b = (w'.link n).b := by
          by_cases e : n = j + 1
          · subst e; rw [put_next]; exact (relay_sides hm).1.2
          · rw [put_other _ _ (by omega) e]
        rw [e]; exact ⟨⟨rfl, rfl, rfl, rfl⟩, grows_refl _⟩
    obtain ⟨c1, c2, c3, c4⟩ := hA
    obtain ⟨⟨d1, d2, d3, d4⟩, g⟩ := hB
    refine ⟨⟨c1.trans a1, c2.trans a2, c3.trans a3, c4.trans a4⟩, ⟨d1.trans b1, d2.trans b2, d3.trans b3, d4.trans b4⟩,
      hd.trans g.delivered, fun h => ?_⟩
    have := he h
    rw [g.reader this.1, g.writer this.2]
    exact this

theorem chain_runs_passing {kc : Kind} {kl : Nat → Kind} {n : Nat} {pre : List Message} {w w' : Chain.World}
    (h : Chain.Runs kc kl n w w') (hp : Spec.Passing pre (w.ends n)) : Spec.Passing pre (w'.ends n) := by
  obtain ⟨⟨a1, a2, a3, a4⟩, ⟨b1, b2, b3, b4⟩, hd, he⟩ := chain_kept_ends h
  refine ⟨⟨a1.trans hp.gone.1, fun e => he (hp.gone.2 (b1 ▸ e))⟩, fun m hm => hp.okA m (a2 ▸ hm), fun m hm => hp.okB m (b2 ▸ hm),
    hp.before, a2 ▸ hp.sentA, fun hm => hp.sentB (b2 ▸ hm), a3.trans hp.rxA, ?_⟩
  exact hp.rxB.imp (fun h => b3.trans h) (fun h => hd.subset h)

/-- C142: so, from the moment on when client and server (on a socket) have sent everything and dropped their senders, the
two need only go on receiving: every maximal run ends, and with everything delivered, all joined and all relays gone. -/
theorem C142_leave {kc : Kind} {kl : Nat → Kind} {n : Nat} {pre : List Message} {w : Chain.World}
    (h : Chain.Reachable kc kl n w) (hk : kl n = .socket) (hp : Spec.Passing pre (w.ends n))
    (hx : (w.link 0).a.io.accepted = pre ++ [.notification .exit])
    (ht : (w.link 0).a.io.txAlive = false ∧ (w.link n).b.io.txAlive = false) :
    (∃ w', Chain.Runs kc kl n w w' ∧ Chain.Quiet kc kl n w') ∧
    ∀ w', Chain.Runs kc kl n w w' → Chain.Quiet kc kl n w' →
      (join kc (w'.link 0).a.io = .ok ∧ (w'.link 0).a.io.delivered = (w.link n).b.io.accepted.map Spec.heard) ∧
      (join .socket (w'.link n).b.io = .ok ∧ (w'.link n).b.io.delivered = (w.link 0).a.io.accepted.map Spec.heard) ∧
      ∀ i < n, (w'.link i).b.gone = true := by
  refine ⟨(C142_settles h).2, fun w' hr hq => ?_⟩
  obtain ⟨⟨_, a2, _, a4⟩, ⟨_, b2, _, b4⟩, _, _⟩ := chain_kept_ends hr
  obtain ⟨h1, h2, h3, h4⟩ := C142_joined (chain_runs hr h) (chain_runs_passing hr hp) (a2.trans hx)
    ⟨a4.trans ht.1, b4.trans ht.2⟩ (.inl hk) hq
  rw [b2] at h1
  rw [a2] at h2
  exact ⟨⟨(h3 0 (Nat.zero_le _)).1, h1⟩, ⟨hk ▸ (h3 n (Nat.le_refl _)).2, h2⟩, fun i hi => (h4 i hi).1⟩

/-- A chain of which only the two ends have done something. -/
def endsWorld (n : Nat) (x y : Side) : Chain.World :=
  { link := fun i => ⟨if i = 0 then x else {}, if i = n then y else {}⟩ }

/-- Beside C142_leave: client and server may have sent whatever they like, and dropped their senders, before any relay
does anything. -/
theorem chain_said (kc : Kind) (kl : Nat → Kind) (n : Nat) (ms ns : List Message) :
    Chain.Reachable kc kl n (endsWorld n (saidSide ms) (saidSide ns)) := by
  have wrote : ∀ m : Message, Frame.write m ≠ [] := by
    intro m e
    have := congrArg List.length e
    simp [Frame.write, Frame.frame, utf8] at this
    exact absurd this.1 (by decide)
  have stepA : ∀ {x y : Side} {act : Act} {io : State}, Chain.Reachable kc kl n (endsWorld n x y) → x.gone = false →
      Step kc x.io act io → (∀ bs, act ≠ .arrive bs) → (∀ b, act ≠ .hangUp b) → act ≠ .writeFails →
      Chain.Reachable kc kl n (endsWorld n { x with io } y) := by
    intro x y act io h g hs h1 h2 h3
    have := h.step (.client (.own g hs h1 h2 h3))
    refine (congrArg (Chain.Reachable kc kl n) ?_).mp this
    simp only [Chain.World.set, endsWorld]
    congr 1
    funext j
    by_cases e : j = 0
    · subst e; simp
    · simp [e]
  have stepB : ∀ {x y : Side} {act : Act} {io : State}, Chain.Reachable kc kl n (endsWorld n x y) → y.gone = false →
      Step (kl n) y.io act io → (∀ bs, act ≠ .arrive bs) → (∀ b, act ≠ .hangUp b) → act ≠ .writeFails →
      Chain.Reachable kc kl n (endsWorld n x { y with io }) := by
    intro x y act io h g hs h1 h2 h3
    have e : ((endsWorld n x y).link n).b = y := by simp [endsWorld]
    have := h.step (.server (b := { y with io }) (by rw [e]; exact .own g hs h1 h2 h3))
    refine (congrArg (Chain.Reachable kc kl n) ?_).mp this
    simp only [Chain.World.set, endsWorld]
    congr 1
    funext j
    by_cases e : j = n
    · subst e; simp
    · simp [e]
  have c : ∀ (r l : List Message), Chain.Reachable kc kl n
      (endsWorld n ⟨{ out := l.flatMap Frame.write, accepted := l }, false⟩ {}) → Chain.Reachable kc kl n
      (endsWorld n ⟨{ out := (l ++ r).flatMap Frame.write, accepted := l ++ r }, false⟩ {}) := by
    intro r
    induction r with
    | nil => intro l h; rw [List.append_nil]; exact h
    | cons m r ih =>
      intro l h
      have h1 := stepA h rfl (.accept _ m rfl rfl) (by simp) (by simp) (by simp)
      have h2 := stepA h1 rfl (.write _ (Frame.write m) [] (by simp) (wrote m)) (by simp) (by simp) (by simp)
      have h3 := stepA h2 rfl (.written _ rfl) (by simp) (by simp) (by simp)
      have := ih (l ++ [m]) (by simpa using h3)
      simpa using this
  have s : ∀ (r l : List Message), Chain.Reachable kc kl n
      (endsWorld n (saidSide ms) ⟨{ out := l.flatMap Frame.write, accepted := l }, false⟩) → Chain.Reachable kc kl n
      (endsWorld n (saidSide ms) ⟨{ out := (l ++ r).flatMap Frame.write, accepted := l ++ r }, false⟩) := by
    intro r
    induction r with
    | nil => intro l h; rw [List.append_nil]; exact h
    | cons m r ih =>
      intro l h
      have h1 := stepB h rfl (.accept _ m rfl rfl) (by simp) (by simp) (by simp)
      have h2 := stepB h1 rfl (.write _ (Frame.write m) [] (by simp) (wrote m)) (by simp) (by simp) (by simp)
      have h3 := stepB h2 rfl (.written _ rfl) (by simp) (by simp) (by simp)
      have := ih (l ++ [m]) (by simpa using h3)
      simpa using this
  have h0 : Chain.Reachable kc kl n (endsWorld n {} {}) := by
    have e : endsWorld n {} {} = ({} : Chain.World) := by simp [endsWorld]
    rw [e]; exact .start
  have h1 := stepA (c ms [] h0) rfl (.dropTx _) (by simp) (by simp) (by simp)
  exact stepB (s ns [] h1) rfl (.dropTx _) (by simp) (by simp) (by simp)

end

section
attribute [local instance] Ext.sample FloatText.sample

/-- The two ends, as beside C141. -/
theorem sampleChain_passing (n : Nat) : Spec.Passing [.request (.shutdown (.i32 4))]
    ((endsWorld n (saidSide [.request (.shutdown (.i32 4)), .notification .exit]) (saidSide [sampleOut])).ends n) := by
  have h := sampleRelay_passing
  have e : ((endsWorld n (saidSide [.request (.shutdown (.i32 4)), .notification .exit]) (saidSide [sampleOut])).link n).b =
    saidSide [sampleOut] := by simp [endsWorld]
  refine ⟨⟨rfl, ?_⟩, h.okA, ?_, h.before, h.sentA, ?_, rfl, ?_⟩
  · simp only [Chain.World.ends, e]; exact h.gone.2
  · simp only [Chain.World.ends, e]; exact h.okB
  · simp only [Chain.World.ends, e]; exact h.sentB
  · simp only [Chain.World.ends, e]; exact h.rxB

/-- Beside C142_order, C142_settles, C142_joined, C142_leave: through any number of relays. -/
example (kc : Kind) (n : Nat) : ∃ w, Chain.Reachable kc (fun _ => .socket) n w ∧ Chain.Quiet kc (fun _ => .socket) n w ∧
    (∀ i < n, (w.link i).b.gone = true) ∧ (w.link 0).a.io.delivered = [Spec.heard sampleOut] ∧
    (w.link n).b.io.delivered = [.response ⟨.i32 4, none, none⟩, .notification .exit] ∧
    (∀ i ≤ n, join .socket (w.link i).b.io = .ok) ∧
    (w.link n).b.io.delivered <+: (w.link 0).a.io.accepted.map Spec.heard := by
  have h := chain_said kc (fun _ => .socket) n [.request (.shutdown (.i32 4)), .notification .exit] [sampleOut]
  have hp := sampleChain_passing n
  have e : ((endsWorld n (saidSide [.request (.shutdown (.i32 4)), .notification .exit]) (saidSide [sampleOut])).link n).b =
    saidSide [sampleOut] := by simp [endsWorld]
  have hl := C142_leave h rfl hp rfl ⟨rfl, by rw [e]; rfl⟩
  obtain ⟨w, hr, hq⟩ := (C142_settles h).2
  obtain ⟨h1, h2, h3⟩ := hl.2 w hr hq
  obtain ⟨⟨_, a2, _, a4⟩, ⟨_, b2, _, b4⟩, _, _⟩ := chain_kept_ends hr
  have hp' := chain_runs_passing hr hp
  have hj := C142_joined (chain_runs hr h) hp' a2 ⟨a4, b4.trans (by rw [e]; rfl)⟩ (.inl rfl) hq
  refine ⟨w, chain_runs hr h, hq, h3, ?_, h2.2, fun i hi => (hj.2.2.1 i hi).2, (C142_order (chain_runs hr h)).1 hp'.okA⟩
  rw [h1.2, e]
  rfl

/-- Beside C142_rest: the same before exit, through any number of relays, with any kinds of connections. -/
example (kc : Kind) (kl : Nat → Kind) (n : Nat) : ∃ w, Chain.Reachable kc kl n w ∧ Chain.Quiet kc kl n w ∧
    (w.link 0).a.io.delivered = [Spec.heard sampleOut] ∧
    (w.link n).b.io.delivered = [.response ⟨.i32 4, none, none⟩] := by
  have h := chain_said kc kl n [.request (.shutdown (.i32 4))] [sampleOut]
  have e : ((endsWorld n (saidSide [.request (.shutdown (.i32 4))]) (saidSide [sampleOut])).link n).b =
    saidSide [sampleOut] := by simp [endsWorld]
  have g := sampleRelay_passing
  have hp : Spec.Passing [.request (.shutdown (.i32 4))]
      ((endsWorld n (saidSide [.request (.shutdown (.i32 4))]) (saidSide [sampleOut])).ends n) := by
    refine ⟨⟨rfl, ?_⟩, ?_, ?_, g.before, ⟨[.notification .exit], rfl⟩, ?_, rfl, ?_⟩
    · simp only [Chain.World.ends, e]; exact g.gone.2
    · intro m hm
      have hm : m ∈ [Message.request (.shutdown (.i32 4))] := hm
      rw [List.mem_singleton.1 hm]
      exact g.okA _ (List.mem_cons_self ..)
    · simp only [Chain.World.ends, e]; exact g.okB
    · simp only [Chain.World.ends, e]; exact g.sentB
    · simp only [Chain.World.ends, e]; exact g.rxB
  obtain ⟨w, hr, hq⟩ := (C142_settles h).2
  obtain ⟨⟨_, a2, _⟩, ⟨_, b2, _⟩, _, _⟩ := chain_kept_ends hr
  have a3 : (w.link 0).a.io.accepted = [.request (.shutdown (.i32 4))] := a2
  obtain ⟨h1, h2, _⟩ := C142_rest (chain_runs hr h) (chain_runs_passing hr hp) (by rw [a3]; simp) hq
  refine ⟨w, chain_runs hr h, hq, ?_, ?_⟩
  · rw [h1, b2, e]; rfl
  · rw [h2, a3]; rfl

end
end Bsp
