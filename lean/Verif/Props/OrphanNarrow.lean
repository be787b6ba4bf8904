/-
C146 with finite buffers.
-/
import Verif.Props.Narrow
import Verif.Props.Orphan

set_option linter.unusedSectionVars false

namespace Bsp
open Frame Transport Link
open Bridge (Hand Carry Who)
open Flow (Caps Asks Lets)

section
variable [LawfulExt] [FloatText]
variable {c : Nat → Caps} {kc : Kind} {kl : Nat → Kind} {n : Nat}

/-- The thread that writes to a process that has gone is not in the middle of a message, when nothing can happen any more. -/
theorem gone_writer {k k' : Kind} {x y : Side} (hg : x.gone = false) (hy : y.gone = true)
    (no : ∀ act x', Move k k' x y (.act act) x' → Link.Ev.app (.act act) = false → (∀ m, act ≠ .deliver m) →
      x'.io.out = x.io.out → (x'.io.arrived = x.io.arrived ∨ Asks x.io) → False) (r : Bytes) : x.io.writer ≠ .writing r := by
  intro e
  cases r with
  | nil => exact no _ _ (.own hg (.written _ e) (by simp) (by simp) (by simp)) rfl (by simp) rfl (.inl rfl)
  | cons b r =>
    exact no _ _ (.fails hg (by simp [Side.closed, hy]) e (by simp) (.writeFails _ _ e)) rfl (by simp) rfl (.inl rfl)

/-- The thread that reads from a process that has gone has ended, when nothing can happen any more. -/
theorem gone_reader {k k' : Kind} {x y : Side} (hp : x.io.arrived <+: y.io.out) (hg : x.gone = false) (hy : y.gone = true)
    (no : ∀ act x', Move k k' x y (.act act) x' → Link.Ev.app (.act act) = false → (∀ m, act ≠ .deliver m) →
      x'.io.out = x.io.out → (x'.io.arrived = x.io.arrived ∨ Asks x.io) → False)
    (nd : ∀ m io, Step k x.io (.deliver m) io → False) : x.io.reader.ended = true := by
  cases e : x.io.reader with
  | reading =>
    exfalso
    by_cases hs : ∃ r, Settled x.io r
    · obtain ⟨r, hs⟩ := hs
      exact no _ _ (.own hg (.read _ r e hs) (by simp) (by simp) (by simp)) rfl (by simp)
        (by cases r <;> rfl) (by cases r <;> exact .inl rfl)
    · have hs : ∀ r, ¬ Settled x.io r := fun r hr => hs ⟨r, hr⟩
      cases hin : x.io.inEnd with
      | some b => exact hs (readMsg (⟨x.io.unread, b⟩ : Flat)) (by simp [Settled, hin])
      | none =>
        by_cases hne : x.io.arrived = y.io.out
        · exact no _ _ (.fin hg (by simp [Side.closed, hy]) hne (.hangUp _ false hin)) rfl (by simp) rfl (.inl rfl)
        · obtain ⟨t, ht, he⟩ := prefix_rest hp hne
          exact no _ _ (.arrive hg ht (by rw [he]; exact List.prefix_refl _) (.arrive _ t hin)) rfl (by simp) rfl
            (.inr ⟨e, hs⟩)
  | sending m =>
    cases hx : x.io.rxAlive with
    | true => exact (nd _ _ (.deliver _ m e hx)).elim
    | false =>
      exact (no _ _ (.own hg (.undeliverable _ m e hx) (by simp) (by simp) (by simp)) rfl (by simp) rfl (.inl rfl)).elim
  | _ => rfl

/-- What the two sides of a relay can do without writing they have done, when nothing can happen any more. -/
theorem relay_sides_still {w : Chain.World} {i : Nat} (hi : i < n) (hq : Narrow.Quiet c kc kl n w) :
    (∀ act x', Move (kl i) (Chain.near kc i) (w.link i).b (w.link i).a (.act act) x' →
      Link.Ev.app (.act act) = false → (∀ m, act ≠ .deliver m) → x'.io.out = (w.link i).b.io.out →
      (x'.io.arrived = (w.link i).b.io.arrived ∨ Asks (w.link i).b.io) → False) ∧
    (∀ act x', Move .socket (kl (i + 1)) (w.link (i + 1)).a (w.link (i + 1)).b (.act act) x' →
      Link.Ev.app (.act act) = false → (∀ m, act ≠ .deliver m) → x'.io.out = (w.link (i + 1)).a.io.out →
      (x'.io.arrived = (w.link (i + 1)).a.io.arrived ∨ Asks (w.link (i + 1)).a.io) → False) :=
  ⟨fun act x' h1 h2 h3 h4 h5 => narrow_right (hushed hq) (by omega) h1 h2 h3 (.inl h4) h5,
   fun act x' h1 h2 h3 h4 h5 => narrow_left (hushed hq) (i := i + 1) (by omega) h1 h2 (fun _ => h3) (.inl h4) h5⟩

/-- A relay that is not writing has nothing in its hands, when nothing can happen any more. -/
theorem relay_hands {w : Chain.World} (h : Chain.Reachable kc kl n w) {i : Nat} (hi : i < n) (hq : Narrow.Quiet c kc kl n w)
    (g : (w.link i).b.gone = false) (wL : ∀ r, (w.link i).b.io.writer ≠ .writing r)
    (wR : ∀ r, (w.link (i + 1)).a.io.writer ≠ .writing r) :
    (∀ m, w.up i ≠ .holding m) ∧ (∀ m, w.down i ≠ .holding m) := by
  have bi := bridgeInv (chain_around h i hi)
  obtain ⟨c1, c2⟩ := narrow_carry (hushed hq) hi ⟨g, bi.gone.symm.trans g⟩
  constructor
  · intro m e
    have ht : (w.link (i + 1)).a.io.txAlive = true := by
      cases ht : (w.link (i + 1)).a.io.txAlive with
      | true => rfl
      | false => have := bi.up.2 (.inr ht); change w.up i = _ at this; rw [e] at this; cases this
    cases ew : (w.link (i + 1)).a.io.writer with
    | idle => exact c1 e (.send (.accept _ m ew ht))
    | writing r => exact wR r ew
    | _ => exact c1 e (.unsent (by rw [ew]; rfl))
  · intro m e
    have ht : (w.link i).b.io.txAlive = true := by
      cases ht : (w.link i).b.io.txAlive with
      | true => rfl
      | false => have := bi.down.2 (.inr ht); change w.down i = _ at this; rw [e] at this; cases this
    cases ew : (w.link i).b.io.writer with
    | idle => exact c2 e (.send (.accept _ m ew ht))
    | writing r => exact wL r ew
    | _ => exact c2 e (.unsent (by rw [ew]; rfl))

/-- Neither of the threads of such a relay can receive. -/
theorem relay_takes {w : Chain.World} (h : Chain.Reachable kc kl n w) {i : Nat} (hi : i < n) (hq : Narrow.Quiet c kc kl n w)
    (g : (w.link i).b.gone = false) (wL : ∀ r, (w.link i).b.io.writer ≠ .writing r)
    (wR : ∀ r, (w.link (i + 1)).a.io.writer ≠ .writing r) :
    (∀ m io, Step (kl i) (w.link i).b.io (.deliver m) io → False) ∧
    (∀ m io, Step .socket (w.link (i + 1)).a.io (.deliver m) io → False) := by
  have bi := bridgeInv (chain_around h i hi)
  obtain ⟨c1, c2⟩ := narrow_carry (hushed hq) hi ⟨g, bi.gone.symm.trans g⟩
  obtain ⟨q1, q2⟩ := relay_hands h hi hq g wL wR
  constructor
  · intro m io hs
    cases e : w.up i with
    | waiting => exact c1 e (.recv hs)
    | holding m => exact q1 m e
    | ended => cases hs with | deliver _ _ hx => exact c1 e (.dropRx hx)
  · intro m io hs
    cases e : w.down i with
    | waiting => exact c2 e (.recv hs)
    | holding m => exact q2 m e
    | ended => cases hs with | deliver _ _ hx => exact c2 e (.dropRx hx)

/-- Such a relay has exited if both its readers have ended. -/
theorem relay_ends {w : Chain.World} (h : Chain.Reachable kc kl n w) {i : Nat} (hi : i < n) (hq : Narrow.Quiet c kc kl n w)
    (wL : ∀ r, (w.link i).b.io.writer ≠ .writing r) (wR : ∀ r, (w.link (i + 1)).a.io.writer ≠ .writing r)
    (rL : (w.link i).b.io.reader.ended = true) (rR : (w.link (i + 1)).a.io.reader.ended = true) :
    (w.link i).b.gone = true := by
  cases g : (w.link i).b.gone with
  | true => rfl
  | false =>
    exfalso
    have bi := bridgeInv (chain_around h i hi)
    have g' : (w.link (i + 1)).a.gone = false := bi.gone.symm.trans g
    have aw : (w.around i).awake := ⟨g, g'⟩
    obtain ⟨c1, c2⟩ := narrow_carry (hushed hq) hi aw
    obtain ⟨noL, noR⟩ := relay_sides_still hi hq
    obtain ⟨q1, q2⟩ := relay_hands h hi hq g wL wR
    have u1 : w.up i = .ended := by
      cases e : w.up i with
      | waiting => exact absurd (.closed rL) (c1 e)
      | holding m => exact absurd e (q1 m)
      | ended => rfl
    have d1 : w.down i = .ended := by
      cases e : w.down i with
      | waiting => exact absurd (.closed rR) (c2 e)
      | holding m => exact absurd e (q2 m)
      | ended => rfl
    have u2 : (w.link i).b.io.rxAlive = false := Bool.eq_false_iff.2 fun t => c1 u1 (.dropRx t)
    have u3 : (w.link (i + 1)).a.io.txAlive = false := Bool.eq_false_iff.2 fun t => c1 u1 (.dropTx t)
    have d2 : (w.link (i + 1)).a.io.rxAlive = false := Bool.eq_false_iff.2 fun t => c2 d1 (.dropRx t)
    have d3 : (w.link i).b.io.txAlive = false := Bool.eq_false_iff.2 fun t => c2 d1 (.dropTx t)
    have eL : (w.link i).b.io.writer.ended = true := by
      cases e : (w.link i).b.io.writer with
      | idle => exact (noL _ _ (.own g (.close _ e d3) (by simp) (by simp) (by simp)) rfl (by simp) rfl (.inl rfl)).elim
      | writing r => exact absurd e (wL r)
      | _ => rfl
    have eR : (w.link (i + 1)).a.io.writer.ended = true := by
      cases e : (w.link (i + 1)).a.io.writer with
      | idle => exact (noR _ _ (.own g' (.close _ e u3) (by simp) (by simp) (by simp)) rfl (by simp) rfl (.inl rfl)).elim
      | writing r => exact absurd e (wR r)
      | _ => rfl
    have := hq .relay _ ⟨.relay hi (.finish (w := w.around i) aw u1 d1 u2 d3 d2 u3 (join_returns ⟨rL, eL⟩)
      (fun _ => join_returns ⟨rR, eR⟩)), fun k _ => put_lets ⟨.inl rfl, .inl rfl, .inl rfl, .inl rfl⟩
        ⟨.inl rfl, .inl rfl, .inl rfl, .inl rfl⟩ k⟩
    cases this

/-- C146: with finite buffers, of whatever size (even none), too, a relay whose two neighbours have gone exits: it is not kept
by what it cannot write any more. -/
theorem C146_between_narrow {w : Chain.World} (h : Narrow.Reachable c kc kl n w) {i : Nat} (hi : i < n)
    (ha : (w.link i).a.gone = true) (hb : (w.link (i + 1)).b.gone = true) (hq : Narrow.Quiet c kc kl n w) :
    (w.link i).b.gone = true ∧ (w.link (i + 1)).a.gone = true := by
  have h := narrow_chain h
  have hr := chain_around h i hi
  have bi := bridgeInv hr
  suffices (w.link i).b.gone = true from ⟨this, bi.gone.symm.trans this⟩
  cases g : (w.link i).b.gone with
  | true => rfl
  | false =>
    have g' : (w.link (i + 1)).a.gone = false := bi.gone.symm.trans g
    obtain ⟨noL, noR⟩ := relay_sides_still hi hq
    have wL := gone_writer g ha noL
    have wR := gone_writer g' hb noR
    obtain ⟨t1, t2⟩ := relay_takes h hi hq g wL wR
    rw [← g]
    exact relay_ends h hi hq wL wR (gone_reader (pair_inv (link_pair (bridge_left hr))).2.2.1 g ha noL t1)
      (gone_reader (pair_inv (link_pair (bridge_right hr))).2.2.2 g' hb noR t2)

/-- C146: with finite buffers, too, relays stay for ever after a conversation without exit. -/
theorem C146_after_narrow (hc : ∀ i ≤ n, 1 ≤ (c i).toRight ∧ 1 ≤ (c i).toLeft) {pre : List Message} {w u : Chain.World}
    {xs : List Who} (h : Narrow.Reachable c kc kl n w) (hp : Spec.Passing pre (w.ends n))
    (hx : Message.notification .exit ∉ (w.link 0).a.io.accepted) (hq : Narrow.Quiet c kc kl n w)
    (hu : Narrow.Steps c kc kl n w xs u) (ha : (u.link 0).a.io.accepted = (w.link 0).a.io.accepted)
    (hb : (u.link n).b.io.accepted = (w.link n).b.io.accepted) :
    (2 ≤ n → ∀ i < n, (u.link i).b.gone = false ∧ (u.link (i + 1)).a.gone = false) ∧
    (1 ≤ n → (u.link n).b.gone = false → (u.link n).b.io.rxAlive = true → join (kl n) (u.link n).b.io = .waiting) ∧
    (1 ≤ n → (u.link 0).a.gone = false → (u.link 0).a.io.rxAlive = true → join kc (u.link 0).a.io = .waiting) := by
  have hl : Chain.Later kc kl n w u := by
    clear ha hb
    induction hu with
    | nil => exact .nil _
    | snoc _ hs ih => exact .snoc ih hs.step
  exact C146_after (narrow_chain h) hp hx (C143_rest hc (narrow_chain h) hp hq) hl ha hb

/-- Beside `C146_between_narrow`: one relay with no room in any buffer; the client and the server exit at once, then the relay
does. -/
example (kc : Kind) (kl : Nat → Kind) : ∃ w, Narrow.Reachable (fun _ => ⟨0, 0⟩) kc kl 1 w ∧
    Narrow.Quiet (fun _ => ⟨0, 0⟩) kc kl 1 w ∧ (w.link 0).b.gone = true ∧ (w.link 1).a.gone = true := by
  have h1 : Narrow.Reachable (fun _ => ⟨0, 0⟩) kc kl 1 _ := .step .start (narrow_client (.exit rfl) rfl rfl)
  have h2 := Narrow.Reachable.step h1 (narrow_server (.exit (by rw [set_other _ _ (by omega)])) rfl rfl)
  obtain ⟨xs, w, hr, hf, hq⟩ := (C143_settles h2).2
  obtain ⟨⟨a1, _⟩, ⟨b1, _⟩, _⟩ := chain_kept_ends (narrow_runs hr hf)
  have h3 := narrow_steps hr h2
  refine ⟨w, h3, hq, C146_between_narrow h3 (by omega) (a1.trans ?_) (b1.trans ?_) hq⟩
  · rw [set_other _ _ (by omega), set_self]
  · rw [set_self]

end

section
attribute [local instance] Ext.sample FloatText.sample

/-- Beside `C146_after_narrow`: buffers of one byte and two relays or more; after the conversation beside C143_rest the client
exits. -/
example (kc : Kind) (n : Nat) : ∃ u, Narrow.Reachable (fun _ => ⟨1, 1⟩) kc (fun _ => .socket) (n + 2) u ∧
    (u.link 0).a.gone = true ∧ (u.link 0).a.io.accepted = [.request (.shutdown (.i32 4))] ∧
    (u.link (n + 2)).b.io.accepted = [sampleOut] ∧
    ∀ i < n + 2, (u.link i).b.gone = false ∧ (u.link (i + 1)).a.gone = false := by
  have hp := sampleRelay_passing
  have hc : ∀ i ≤ n + 2, 1 ≤ ((fun _ => ⟨1, 1⟩ : Nat → Caps) i).toRight ∧ 1 ≤ ((fun _ => ⟨1, 1⟩ : Nat → Caps) i).toLeft :=
    fun _ _ => ⟨Nat.le_refl _, Nat.le_refl _⟩
  have okA : ∀ m ∈ [Message.request (.shutdown (.i32 4))], Spec.Sayable m := fun m hm => hp.okA m (List.mem_append_left _ hm)
  have okB : ∀ m ∈ [sampleOut], Spec.Sayable m := hp.okB
  have hs : [Message.request (.shutdown (.i32 4))] <+: [.request (.shutdown (.i32 4))] ++ [.notification .exit] :=
    List.prefix_append _ _
  obtain ⟨w0, h0⟩ := midway_all (kc := kc) (kl := fun _ => .socket) hc hp.before okA okB hp.sentB hs
  obtain ⟨w, h, hq⟩ := midway_rest h0
  have hpa := midway_passing h okA okB hp.before hp.sentB hs
  have s1 : Narrow.Steps (fun _ => ⟨1, 1⟩) kc (fun _ => .socket) (n + 2) w _ _ :=
    .snoc (.nil _) (narrow_client (.exit h.client.1) rfl rfl)
  have e0 : ((w.set 0 { w.link 0 with a := { (w.link 0).a with gone := true } }).link 0).a.io = (w.link 0).a.io := by
    rw [set_self]
  have e1 : (w.set 0 { w.link 0 with a := { (w.link 0).a with gone := true } }).link (n + 2) = w.link (n + 2) :=
    set_other _ _ (by omega)
  refine ⟨_, narrow_steps s1 h.reach, by rw [set_self], by rw [e0]; exact h.client.2.1, by rw [e1]; exact h.server.2.1, ?_⟩
  exact (C146_after_narrow hc h.reach hpa (by rw [h.client.2.1]; exact hp.before) hq s1 (by rw [e0]) (by rw [e1])).1 (by omega)

end
end Bsp
