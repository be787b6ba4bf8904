/-
C91, C92: two processes that use this library on the two ends of a connection.  C93: setting up.
-/
import Verif.Link
import Verif.Props.Heard

namespace Bsp
open Frame Json Transport Link
open Spec (Header lines blank GoodLines Declares keys)

section
variable [Ext] [FloatText]

/-! ### One step of one side -/

theorem move_step {k k' : Kind} {x y x' : Side} {ev : Ev} (h : Move k k' x y ev x') :
    (∃ act, ev = .act act ∧ Step k x.io act x'.io ∧ x'.gone = x.gone) ∨ (ev = .exit ∧ x'.io = x.io) := by
  cases h with
  | own _ h1 _ _ _ => exact .inl ⟨_, rfl, h1, rfl⟩
  | arrive _ _ _ h1 => exact .inl ⟨_, rfl, h1, rfl⟩
  | fin _ _ _ h1 => exact .inl ⟨_, rfl, h1, rfl⟩
  | reset _ _ _ _ h1 => exact .inl ⟨_, rfl, h1, rfl⟩
  | fails _ _ _ _ h1 => exact .inl ⟨_, rfl, h1, rfl⟩
  | exit _ => exact .inr ⟨rfl, rfl⟩

/-- What one step of a side leaves. -/
structure Grows (x x' : Side) : Prop where
  gone : x.gone = true → x'.gone = true
  delivered : x.io.delivered <+: x'.io.delivered
  accepted : x.io.accepted <+: x'.io.accepted
  rx : x'.io.rxAlive = true → x.io.rxAlive = true
  tx : x'.io.txAlive = true → x.io.txAlive = true
  reader : x.io.reader.ended = true → x'.io.reader = x.io.reader
  writer : x.io.writer.ended = true → x'.io.writer = x.io.writer
  out : x.io.writer.ended = true → x'.io.out = x.io.out
  inEnd : ∀ b, x.io.inEnd = some b → x'.io.inEnd = some b ∧ x'.io.arrived = x.io.arrived

theorem step_grows {k : Kind} {s s' : State} {a : Act} (h : Step k s a s') (g : Bool) :
    Grows ⟨s, g⟩ ⟨s', g⟩ := by
  cases h with
  | arrive bs h1 => exact ⟨id, by simp, by simp, id, id, fun _ => rfl, fun _ => rfl, fun _ => rfl, by simp [h1]⟩
  | hangUp b h1 => exact ⟨id, by simp, by simp, id, id, fun _ => rfl, fun _ => rfl, fun _ => rfl, by simp [h1]⟩
  | read r h1 h2 =>
    refine ⟨id, ?_, ?_, ?_, ?_, ?_, ?_, ?_, ?_⟩ <;>
      cases r <;> simp [afterRead, h1, Reader.ended]
  | deliver m h1 h2 => exact ⟨id, by simp, by simp, by simp [h2], id, by simp [h1, Reader.ended], fun _ => rfl, fun _ => rfl, by simp⟩
  | undeliverable m h1 h2 => exact ⟨id, by simp, by simp, by simp [h2], id, by simp [h1, Reader.ended], fun _ => rfl, fun _ => rfl, by simp⟩
  | dropRx => exact ⟨id, by simp, by simp, by simp, id, fun _ => rfl, fun _ => rfl, fun _ => rfl, by simp⟩
  | accept m h1 h2 => exact ⟨id, by simp, by simp, id, by simp [h2], fun _ => rfl, by simp [h1, Writer.ended], by simp [h1, Writer.ended], by simp⟩
  | write a b h1 h2 => exact ⟨id, by simp, by simp, id, id, fun _ => rfl, by simp [h1, Writer.ended], by simp [h1, Writer.ended], by simp⟩
  | written h1 => exact ⟨id, by simp, by simp, id, id, fun _ => rfl, by simp [h1, Writer.ended], by simp [h1, Writer.ended], by simp⟩
  | writeFails b h1 => exact ⟨id, by simp, by simp, id, id, fun _ => rfl, by simp [h1, Writer.ended], by simp [h1, Writer.ended], by simp⟩
  | dropTx => exact ⟨id, by simp, by simp, id, by simp, fun _ => rfl, fun _ => rfl, fun _ => rfl, by simp⟩
  | close h1 h2 => exact ⟨id, by simp, by simp, id, by simp [h2], fun _ => rfl, by simp [h1, Writer.ended], by simp [h1, Writer.ended], by simp⟩

theorem step_no_rx {k : Kind} {s s' : State} {a : Act} (h : Step k s a s') (hx : s.rxAlive = false) :
    s'.delivered = s.delivered := by
  cases h with
  | deliver m _ h4 => rw [hx] at h4; cases h4
  | read r _ _ => cases r <;> rfl
  | _ => rfl

theorem move_grows {k k' : Kind} {x y x' : Side} {ev : Ev} (h : Move k k' x y ev x') : Grows x x' := by
  rcases move_step h with ⟨act, _, h1, h2⟩ | ⟨_, h2⟩
  · obtain ⟨xi, xg⟩ := x
    obtain ⟨xi', xg'⟩ := x'
    simp only at h1 h2
    subst h2
    exact step_grows h1 _
  · have hg : x'.gone = true ∨ x' = x := by
      cases h with
      | exit _ => exact .inl rfl
      | _ => right; obtain ⟨_, _⟩ := x; simp only at h2; subst h2; rfl
    rcases hg with hg | rfl
    · exact ⟨fun _ => hg, by simp [h2], by simp [h2], by simp [h2], by simp [h2], by simp [h2], by simp [h2],
        by simp [h2], by simp [h2]⟩
    · exact ⟨id, by simp, by simp, id, id, fun _ => rfl, fun _ => rfl, fun _ => rfl, by simp⟩

omit [FloatText] in
theorem grows_refl (x : Side) : Grows x x :=
  ⟨id, by simp, by simp, id, id, fun _ => rfl, fun _ => rfl, fun _ => rfl, by simp⟩

theorem link_grows {ka kb : Kind} {l l' : Link} {ev : Ev} (h : LinkStep ka kb l ev l') :
    Grows l.a l'.a ∧ Grows l.b l'.b := by
  cases h with
  | left h => exact ⟨move_grows h, grows_refl _⟩
  | right h => exact ⟨grows_refl _, move_grows h⟩

omit [FloatText] in
theorem grows_closed {k : Kind} {x x' : Side} (h : Grows x x') (hc : x.closed k = true) :
    x'.closed k = true := by
  simp only [Side.closed, Bool.or_eq_true, Bool.and_eq_true] at *
  rcases hc with hc | ⟨⟨h1, h2⟩, h3⟩
  · exact .inl (h.gone hc)
  · exact .inr ⟨⟨h1, by rw [h.reader h2]; exact h2⟩, by rw [h.writer h3]; exact h3⟩

/-- A link is a pair of connections joined by two byte streams. -/
theorem link_pair {ka kb : Kind} {l : Link} (h : Link.Reachable ka kb l) :
    PairReachable ka kb ⟨l.a.io, l.b.io⟩ := by
  induction h with
  | start => exact .start
  | @step l ev l' _ hs ih =>
    cases hs with
    | left h =>
      cases h with
      | own _ h1 h2 _ _ => exact .step ih (.left (p := ⟨_, _⟩) h1 h2)
      | arrive _ _ h2 h1 => exact .step ih (.toLeft (p := ⟨_, _⟩) h2 h1)
      | fin _ _ _ h1 => exact .step ih (.left (p := ⟨_, _⟩) h1 (by simp))
      | reset _ _ _ _ h1 => exact .step ih (.left (p := ⟨_, _⟩) h1 (by simp))
      | fails _ _ _ _ h1 => exact .step ih (.left (p := ⟨_, _⟩) h1 (by simp))
      | exit _ => exact ih
    | right h =>
      cases h with
      | own _ h1 h2 _ _ => exact .step ih (.right (p := ⟨_, _⟩) h1 h2)
      | arrive _ _ h2 h1 => exact .step ih (.toRight (p := ⟨_, _⟩) h2 h1)
      | fin _ _ _ h1 => exact .step ih (.right (p := ⟨_, _⟩) h1 (by simp))
      | reset _ _ _ _ h1 => exact .step ih (.right (p := ⟨_, _⟩) h1 (by simp))
      | fails _ _ _ _ h1 => exact .step ih (.right (p := ⟨_, _⟩) h1 (by simp))
      | exit _ => exact ih

/-- The link seen from the other side. -/
theorem link_swap {ka kb : Kind} {l : Link} (h : Link.Reachable ka kb l) : Link.Reachable kb ka ⟨l.b, l.a⟩ := by
  induction h with
  | start => exact .start
  | step _ hs ih =>
    refine .step ih (ev := ?_) ?_
    · exact (by assumption)
    cases hs with
    | left h => exact .right (l := ⟨_, _⟩) h
    | right h => exact .left (l := ⟨_, _⟩) h

/-! ### C91 -/

/-- The processes live, no reader has failed, and no exit notification has been received. -/
structure Spec.NoExit (l : Link) : Prop where
  gone : l.a.gone = false ∧ l.b.gone = false
  well : l.a.io.reader ≠ .failed ∧ l.a.io.reader ≠ .panicked ∧ l.b.io.reader ≠ .failed ∧ l.b.io.reader ≠ .panicked
  exit : Message.notification .exit ∉ l.a.io.delivered ∧ Message.notification .exit ∉ l.b.io.delivered

theorem noExit_before {ka kb : Kind} {l l' : Link} {ev : Ev} (hs : LinkStep ka kb l ev l') (h : Spec.NoExit l') :
    Spec.NoExit l := by
  obtain ⟨g1, g2⟩ := link_grows hs
  have key : ∀ {x x' : Side}, Grows x x' → x'.io.reader ≠ .failed → x'.io.reader ≠ .panicked →
      x.io.reader ≠ .failed ∧ x.io.reader ≠ .panicked := by
    intro x x' g h1 h2
    constructor <;> intro hr <;> have := g.reader (by rw [hr]; rfl)
    · exact h1 (this.trans hr)
    · exact h2 (this.trans hr)
  obtain ⟨⟨h1, h2⟩, ⟨h3, h4, h5, h6⟩, h7, h8⟩ := h
  obtain ⟨k1, k2⟩ := key g1 h3 h4
  obtain ⟨k3, k4⟩ := key g2 h5 h6
  refine ⟨⟨?_, ?_⟩, ⟨k1, k2, k3, k4⟩, fun h => h7 (g1.delivered.subset h), fun h => h8 (g2.delivered.subset h)⟩
  · cases e : l.a.gone
    · rfl
    · rw [g1.gone e] at h1; cases h1
  · cases e : l.b.gone
    · rfl
    · rw [g2.gone e] at h2; cases h2

theorem noExit_open {ka kb : Kind} {l : Link} (h : Link.Reachable ka kb l) (hn : Spec.NoExit l) :
    (l.a.io.reader.ended = false ∧ l.a.io.inEnd = none) ∧ l.b.io.reader.ended = false ∧ l.b.io.inEnd = none := by
  induction h with
  | start => exact ⟨⟨rfl, rfl⟩, rfl, rfl⟩
  | @step l ev l' hr hs ih =>
    obtain ⟨⟨i1, i2⟩, i3, i4⟩ := ih (noExit_before hs hn)
    obtain ⟨g1, g2⟩ := (noExit_before hs hn).gone
    have hr' := Link.Reachable.step hr hs
    have key : ∀ {k k' : Kind} {x y x' : Side} {ev : Ev}, Move k k' x y ev x' → x.io.inEnd = none →
        y.closed k' = false → x'.io.inEnd = none := by
      intro k k' x y x' ev hm hi hc
      cases hm with
      | own _ h1 _ h2 _ =>
        cases h1 with
        | hangUp b _ => exact absurd rfl (h2 b)
        | read r _ _ => cases r <;> exact hi
        | _ => exact hi
      | arrive _ _ _ h1 => cases h1; exact hi
      | fin _ h1 _ _ => rw [hc] at h1; cases h1
      | reset _ h1 _ _ _ => rw [hc] at h1; cases h1
      | fails _ h1 _ _ _ => rw [hc] at h1; cases h1
      | exit _ => exact hi
    have ends : ∀ {k : Kind} {s : State}, Transport.Reachable k s → s.inEnd = none →
        s.reader ≠ .failed → s.reader ≠ .panicked → Message.notification .exit ∉ s.delivered →
        s.reader.ended = false := by
      intro k s hr hi h1 h2 h3
      cases e : s.reader with
      | reading => rfl
      | sending m => rfl
      | failed => exact absurd e h1
      | panicked => exact absurd e h2
      | done =>
        rcases C55_done hr e with ⟨ms, h4⟩ | ⟨h4, _⟩
        · rw [h4] at h3; simp at h3
        · rw [hi] at h4; cases h4
    obtain ⟨p1, p2, _, _⟩ := pair_inv (link_pair hr')
    obtain ⟨_, ⟨w1, w2, w3, w4⟩, e1, e2⟩ := hn
    have hin : l'.a.io.inEnd = none ∧ l'.b.io.inEnd = none := by
      cases hs with
      | left h => exact ⟨key h i2 (by simp [Side.closed, g2, i3]), i4⟩
      | right h => exact ⟨i2, key h i4 (by simp [Side.closed, g1, i1])⟩
    exact ⟨⟨ends p1 hin.1 w1 w2 e1, hin.1⟩, ends p2 hin.2 w3 w4 e2, hin.2⟩

/-- C91: as long as no exit notification has been received on either side (and no reader has failed and no
process has exited), both readers wait for input, also when both applications have dropped their
connections; `join` returns on neither side. -/
theorem C91_no_exit {ka kb : Kind} {l : Link} (h : Link.Reachable ka kb l) (hn : Spec.NoExit l) :
    join ka l.a.io = .waiting ∧ join kb l.b.io = .waiting := by
  obtain ⟨⟨h1, _⟩, h2, _⟩ := noExit_open h hn
  constructor
  · unfold join
    cases e : l.a.io.reader <;> simp [e, Reader.ended] at h1 ⊢
  · unfold join
    cases e : l.b.io.reader <;> simp [e, Reader.ended] at h2 ⊢

/-- C91: when both applications have dropped their connections and everything that was sent has been received,
nothing happens any more, unless a process exits. -/
theorem C91_stuck {ka kb : Kind} {l : Link} (h : Link.Reachable ka kb l) (hn : Spec.NoExit l)
    (ha : l.a.io.txAlive = false ∧ l.a.io.rxAlive = false ∧ l.a.io.writer = .done)
    (hb : l.b.io.txAlive = false ∧ l.b.io.rxAlive = false ∧ l.b.io.writer = .done)
    (hra : l.a.io.reader = .reading ∧ l.a.io.unread = [] ∧ l.a.io.arrived = l.b.io.out)
    (hrb : l.b.io.reader = .reading ∧ l.b.io.unread = [] ∧ l.b.io.arrived = l.a.io.out)
    {ev : Ev} {l' : Link} (hs : LinkStep ka kb l ev l') : l' = l ∨ ev = .exit := by
  obtain ⟨⟨h1, h2⟩, h3, h4⟩ := noExit_open h hn
  obtain ⟨g1, g2⟩ := hn.gone
  have key : ∀ {k k' : Kind} {x y x' : Side} {ev : Ev}, Move k k' x y ev x' → x.io.inEnd = none →
      y.closed k' = false → x.io.txAlive = false → x.io.rxAlive = false → x.io.writer = .done →
      x.io.reader = .reading → x.io.unread = [] → x.io.arrived = y.io.out → x' = x ∨ ev = .exit := by
    intro k k' x y x' ev hm hi hc ht hx hw hr hu ho
    obtain ⟨s, g⟩ := x
    simp only at *
    cases hm with
    | own _ h1 h0 h2 _ =>
      simp only at h1
      cases h1 with
      | hangUp b _ => exact absurd rfl (h2 b)
      | arrive bs _ => exact absurd rfl (h0 bs)
      | read r h3 h4 => exact absurd (.read _ r h3 h4) (no_read (k := k) hu hi)
      | deliver m h3 _ => rw [hr] at h3; cases h3
      | undeliverable m h3 _ => rw [hr] at h3; cases h3
      | dropRx => left; simp [← hx]
      | accept m h3 _ => rw [hw] at h3; cases h3
      | write a b h3 _ => rw [hw] at h3; cases h3
      | written h3 => rw [hw] at h3; cases h3
      | writeFails b h3 => rw [hw] at h3; cases h3
      | dropTx => left; simp [← ht]
      | close h3 _ => rw [hw] at h3; cases h3
    | arrive _ h1 h2 _ =>
      simp only [ho] at h2
      have := h2.length_le
      simp only [List.length_append] at this
      exact absurd (List.length_eq_zero_iff.1 (by omega)) h1
    | fin _ h1 _ _ => rw [hc] at h1; cases h1
    | reset _ h1 _ _ _ => rw [hc] at h1; cases h1
    | fails _ h1 _ _ _ => rw [hc] at h1; cases h1
    | exit _ => exact .inr rfl
  cases hs with
  | left hm =>
    rcases key hm h2 (by simp [Side.closed, g2, h3]) ha.1 ha.2.1 ha.2.2 hra.1 hra.2.1 hra.2.2 with rfl | h5
    · exact .inl rfl
    · exact .inr h5
  | right hm =>
    rcases key hm h4 (by simp [Side.closed, g1, h1]) hb.1 hb.2.1 hb.2.2 hrb.1 hrb.2.1 hrb.2.2 with rfl | h5
    · exact .inl rfl
    · exact .inr h5

end
/-! ### C92 -/

section
variable [Ext] [FloatText]

/-- Frames that are the beginning of a stream of written messages are the frames of the first of them. -/
theorem carries_written {used : Bytes} {ms : List Message} (h : Spec.Carries used ms) {ns : List Message}
    (hn : ∀ n ∈ ns, (Frame.write n).length ≤ 2 ^ 63 - 1) {r : Bytes} (e : used ++ r = ns.flatMap Frame.write) :
    ∃ n1 n2, ns = n1 ++ n2 ∧ used = n1.flatMap Frame.write ∧ n1.length = ms.length := by
  induction h generalizing r with
  | nil => exact ⟨[], ns, rfl, rfl, rfl⟩
  | @snoc bs ms f cs j m h1 hf hl hj hd ih =>
    obtain ⟨n1, n2, rfl, h2, h3⟩ := ih (r := f ++ r) (by simpa using e)
    have e2 : f ++ r = n2.flatMap Frame.write := by
      rw [List.append_assoc, List.flatMap_append, h2] at e
      exact List.append_cancel_left e
    have h4 : readText (⟨f ++ r, false⟩ : Flat) = .item cs ⟨r, false⟩ :=
      (C08_exactly_one_frame ..).2 ⟨rfl, hl, f, hf, rfl⟩
    cases n2 with
    | nil =>
      rw [e2] at h4
      have h5 : readText (⟨[], false⟩ : Flat) = .eof :=
        (C07_clean_end _ _).2 ⟨rfl, [], by simp [GoodLines], rfl⟩
      simp only [List.flatMap_nil] at h4
      rw [h5] at h4; cases h4
    | cons n n2 =>
      have h5 := readText_write n (hn n (by simp)) (n2.flatMap Frame.write) false
      rw [List.flatMap_cons] at e2
      rw [← e2, h4] at h5
      simp only [Res.item.injEq, Flat.mk.injEq] at h5
      rw [h5.2.1] at e2
      have := List.append_cancel_right e2
      exact ⟨n1 ++ [n], n2, by simp, by simp [h2, this], by simp [h3]⟩

end

section
variable [LawfulExt] [FloatText]


/-- When the receiving side has received the exit notification, the last message sent to it, then it has received
everything, and nothing of the stream is left. -/
theorem exit_received {ka kb : Kind} {p : Pair} (h : PairReachable ka kb p)
    (ha : ∀ m ∈ p.a.accepted, Spec.Sayable m) {pre : List Message}
    (hp : Message.notification .exit ∉ pre) (hacc : p.a.accepted <+: pre ++ [.notification .exit])
    (hx : Message.notification .exit ∈ p.b.delivered) :
    p.a.accepted = pre ++ [.notification .exit] ∧ p.b.delivered = p.a.accepted.map Spec.heard ∧
      p.a.out = p.a.accepted.flatMap Frame.write ∧ p.b.arrived = p.a.out ∧ p.b.unread = [] := by
  obtain ⟨h1, h2, h3, _⟩ := pair_inv h
  have hd : p.b.delivered <+: p.a.accepted.map Spec.heard := by
    obtain ⟨more, hm⟩ := h3.trans (C53_output h1).1
    have := C51_prefix h2 more false
    rw [hm, C13_heard_stream _ ha] at this
    exact this
  have hin : Message.notification .exit ∈ p.a.accepted := by
    obtain ⟨m, hm, he⟩ := List.mem_map.1 (hd.subset hx)
    rwa [heard_exit he] at hm
  have hall : p.a.accepted = pre ++ [.notification .exit] := by
    rcases List.prefix_concat_iff.1 hacc with h4 | h4
    · exact h4
    · exact absurd (h4.subset hin) hp
  obtain ⟨_, ⟨ms, hms, hnot⟩, used, hu, hc⟩ := C52_exit h2 hx
  have hdel : p.b.delivered = p.a.accepted.map Spec.heard := by
    rw [hall] at hd ⊢
    have e : Spec.heard (Message.notification .exit) = .notification .exit := rfl
    rw [List.map_append, List.map_singleton, e] at hd ⊢
    rcases List.prefix_concat_iff.1 hd with h4 | h4
    · exact h4
    · exfalso
      obtain ⟨m, hm, he⟩ := List.mem_map.1 (h4.subset hx)
      rw [heard_exit he] at hm
      exact hp hm
  obtain ⟨t1, ht1⟩ := h3
  obtain ⟨t2, ht2⟩ := (C53_output h1).1
  have hst : used ++ (p.b.unread ++ t1 ++ t2) = p.a.accepted.flatMap Frame.write := by
    rw [← ht2, ← ht1, hu]; simp
  obtain ⟨n1, n2, he, hus, hlen⟩ := carries_written hc (fun n hn => (ha n hn).carried.size) hst
  have hn2 : n2 = [] := by
    have := congrArg List.length hdel
    rw [List.length_map, he, List.length_append] at this
    exact List.length_eq_zero_iff.1 (by omega)
  subst hn2
  rw [List.append_nil] at he
  rw [he, hus] at hst
  have h5 : p.b.unread ++ t1 ++ t2 = [] := List.append_right_eq_self.1 hst
  simp only [List.append_eq_nil_iff] at h5
  obtain ⟨⟨h6, h7⟩, h8⟩ := h5
  refine ⟨hall, hdel, ?_, ?_, h6⟩
  · rw [← ht2, h8, List.append_nil]
  · rw [← ht1, h7, List.append_nil]

/-- Two processes at the end of a session: the left one sends the messages `pre` and then the exit notification, and
nothing more; the right one sends no exit notification; both receive (the right one at least up to the exit notification);
all messages can be carried and are read back.  The left process has not exited, and the right one does so only after
both its threads have ended (that is, after `join`). -/
structure Spec.Leaving (pre : List Message) (l : Link) : Prop where
  gone : l.a.gone = false ∧ (l.b.gone = true → l.b.io.reader.ended = true ∧ l.b.io.writer.ended = true)
  okA : ∀ m ∈ l.a.io.accepted, Spec.Sayable m
  okB : ∀ m ∈ l.b.io.accepted, Spec.Sayable m
  before : Message.notification .exit ∉ pre
  sentA : l.a.io.accepted <+: pre ++ [.notification .exit]
  sentB : Message.notification .exit ∉ l.b.io.accepted
  rxA : l.a.io.rxAlive = true
  rxB : l.b.io.rxAlive = true ∨ Message.notification .exit ∈ l.b.io.delivered

theorem leaving_before {ka kb : Kind} {pre : List Message} {l l' : Link} {ev : Ev} (hs : LinkStep ka kb l ev l')
    (h : Spec.Leaving pre l') : Spec.Leaving pre l := by
  obtain ⟨g1, g2⟩ := link_grows hs
  refine ⟨⟨?_, ?_⟩, fun m hm => h.okA m (g1.accepted.subset hm), fun m hm => h.okB m (g2.accepted.subset hm),
    h.before, g1.accepted.trans h.sentA, fun hm => h.sentB (g2.accepted.subset hm), g1.rx h.rxA, ?_⟩
  · cases e : l.a.gone
    · rfl
    · have := g1.gone e; rw [h.gone.1] at this; cases this
  · intro e
    have h1 := h.gone.2 (g2.gone e)
    cases hs with
    | left _ => exact h1
    | right hm =>
      have : l.b.gone = false := by cases hm <;> assumption
      rw [e] at this; cases this
  · rcases h.rxB with h1 | h1
    · exact .inl (g2.rx h1)
    · cases hs with
      | left _ => exact .inr h1
      | right hm =>
        rcases move_step hm with ⟨act, _, h2, _⟩ | ⟨_, h2⟩
        · by_cases hx : l.b.io.rxAlive = true
          · exact .inl hx
          · right
            have := step_no_rx h2 (by simpa using hx)
            simpa [this] using h1
        · exact .inr (by simpa [h2] using h1)

/-- A side that is closed has ended, when the process exits only after that. -/
theorem closed_ended {k : Kind} {x : Side}
    (hg : x.gone = true → x.io.reader.ended = true ∧ x.io.writer.ended = true) (hc : x.closed k = true) :
    x.io.reader.ended = true ∧ x.io.writer.ended = true := by
  simp only [Side.closed, Bool.or_eq_true, Bool.and_eq_true] at hc
  rcases hc with hc | ⟨⟨_, h1⟩, h2⟩
  · exact hg hc
  · exact ⟨h1, h2⟩

/-- What holds while the two processes leave. -/
structure LeaveInv (kb : Kind) (l : Link) : Prop where
  inA : l.a.io.inEnd = none ∨
    (l.a.io.inEnd = some false ∧ l.b.closed kb = true ∧ l.a.io.arrived = l.b.io.out)
  inB : l.b.io.inEnd ≠ none → Message.notification .exit ∈ l.b.io.delivered
  wA : l.a.io.writer ≠ .failed ∧ l.a.io.writer ≠ .panicked
  wB : l.b.io.writer ≠ .failed ∧ l.b.io.writer ≠ .panicked

theorem leave_reader {ka kb : Kind} {pre : List Message} {l : Link} (hr : Link.Reachable ka kb l)
    (h : Spec.Leaving pre l) (hi : LeaveInv kb l) :
    (l.a.io.reader.ended = true → l.a.io.reader = .done ∧ l.a.io.inEnd = some false ∧ l.b.closed kb = true) ∧
    (l.b.io.reader.ended = true → l.b.io.reader = .done ∧ Message.notification .exit ∈ l.b.io.delivered) := by
  have hp := link_pair hr
  obtain ⟨p1, p2, p3, p4⟩ := pair_inv hp
  have hnot : Message.notification .exit ∉ l.a.io.delivered := by
    intro hx
    obtain ⟨m, hm, he⟩ := List.mem_map.1 ((C56_heard (pair_swap hp) h.okB).subset hx)
    rw [heard_exit he] at hm
    exact h.sentB hm
  have hdA : l.a.io.reader = .done → l.a.io.inEnd = some false := by
    intro e
    rcases C55_done p1 e with ⟨ms, h1⟩ | ⟨h1, _⟩
    · rw [h1] at hnot; simp at hnot
    · exact h1
  constructor
  · intro hend
    rcases hi.inA with h1 | ⟨h1, h2, h3⟩
    · have h2 := C56_heard_no_error (pair_swap hp) h.okB h1
      cases e : l.a.io.reader with
      | reading => simp [e, Reader.ended] at hend
      | sending m => simp [e, Reader.ended] at hend
      | done => have := hdA e; rw [h1] at this; cases this
      | failed => exact absurd e h2.1
      | panicked => have := h2.2 e; rw [h.rxA] at this; cases this
    · refine ⟨?_, h1, h2⟩
      have hw : l.b.io.writer = .done := by
        have h2 := closed_ended h.gone.2 h2
        cases e : l.b.io.writer with
        | idle => simp [e, Writer.ended] at h2
        | writing r => simp [e, Writer.ended] at h2
        | done => rfl
        | failed => exact absurd e hi.wB.1
        | panicked => exact absurd e hi.wB.2
      have hall : readAll (⟨l.a.io.arrived, false⟩ : Flat) = (l.b.io.accepted.map Spec.heard, .eof) := by
        rw [h3, (C54_drained p2 hw).2, C13_heard_stream _ h.okB]
      have key : ∀ ms stop, Spec.Input l.a.io ms stop → stop = .eof := by
        intro ms stop hin
        simp only [Spec.Input, h1, hall] at hin
        cases hin; rfl
      cases e : l.a.io.reader with
      | reading => simp [e, Reader.ended] at hend
      | sending m => simp [e, Reader.ended] at hend
      | done => rfl
      | failed =>
        obtain ⟨_, stop, h4, h5⟩ := C55_error p1 e
        rw [key _ _ h5] at h4; exact h4.elim
      | panicked =>
        rcases C55_panic p1 e with h4 | ⟨_, stop, h4, h5⟩ | h4
        · rw [h.rxA] at h4; cases h4.1
        · rw [key _ _ h5] at h4; exact h4.elim
        · cases key _ _ h4
  · intro hend
    by_cases h1 : l.b.io.inEnd = none
    · have h2 := C56_heard_no_error hp h.okA h1
      cases e : l.b.io.reader with
      | reading => simp [e, Reader.ended] at hend
      | sending m => simp [e, Reader.ended] at hend
      | done =>
        refine ⟨rfl, ?_⟩
        rcases C55_done p2 e with ⟨ms, h3⟩ | ⟨h3, _⟩
        · rw [h3]; simp
        · rw [h1] at h3; cases h3
      | failed => exact absurd e h2.1
      | panicked =>
        have h3 := h2.2 e
        rcases h.rxB with h4 | h4
        · rw [h3] at h4; cases h4
        · have := (C52_exit p2 h4).1
          rw [e] at this; cases this
    · have := hi.inB h1
      exact ⟨(C52_exit p2 this).1, this⟩

theorem leaveInv {ka kb : Kind} {pre : List Message} {l : Link} (hr : Link.Reachable ka kb l)
    (h : Spec.Leaving pre l) : LeaveInv kb l := by
  induction hr with
  | start => exact ⟨.inl rfl, by simp, by simp, by simp⟩
  | @step l ev l' hr hs ih =>
    have h0 := leaving_before hs h
    have hi := ih h0
    obtain ⟨rA, rB⟩ := leave_reader hr h0 hi
    have hp := link_pair hr
    have closedB : l.b.closed kb = true → Message.notification .exit ∈ l.b.io.delivered := by
      intro hc
      exact (rB (closed_ended h0.gone.2 hc).1).2
    have closedA : l.a.closed ka = true → l.b.closed kb = true := by
      intro hc
      exact (rA (closed_ended (by simp [h0.gone.1]) hc).1).2.2
    have all := fun hx => exit_received hp h0.okA h0.before h0.sentA hx
    have wkeep : ∀ {k : Kind} {s s' : State} {a : Act}, Step k s a s' → a ≠ .writeFails →
        s.writer ≠ .failed ∧ s.writer ≠ .panicked → s'.writer ≠ .failed ∧ s'.writer ≠ .panicked := by
      intro k s s' a hs ha hw
      cases hs with
      | writeFails b _ => exact absurd rfl ha
      | read r _ _ => cases r <;> exact hw
      | accept m _ _ => exact ⟨by simp, by simp⟩
      | write a b _ _ => exact ⟨by simp, by simp⟩
      | written _ => exact ⟨by simp, by simp⟩
      | close _ _ => exact ⟨by simp, by simp⟩
      | _ => exact hw
    obtain ⟨g1, g2⟩ := link_grows hs
    have inB' : l.b.io.inEnd ≠ none → Message.notification .exit ∈ l'.b.io.delivered := fun h1 =>
      g2.delivered.subset (hi.inB h1)
    cases hs with
    | left hm =>
      cases hm with
      | own _ h1 h2 h3 h4 =>
        refine ⟨?_, hi.inB, wkeep h1 h4 hi.wA, hi.wB⟩
        rcases hi.inA with h5 | ⟨h5, h6, h7⟩
        · left
          cases h1 with
          | hangUp b _ => exact absurd rfl (h3 b)
          | read r _ _ => cases r <;> exact h5
          | _ => exact h5
        · have := g1.inEnd _ h5
          exact .inr ⟨this.1, h6, this.2.trans h7⟩
      | arrive _ _ _ h1 => 
        refine ⟨?_, hi.inB, wkeep h1 (by simp) hi.wA, hi.wB⟩
        cases h1 with
        | arrive _ h2 => exact .inl h2
      | fin _ h2 h3 h1 =>
        refine ⟨.inr ⟨?_, h2, ?_⟩, hi.inB, wkeep h1 (by simp) hi.wA, hi.wB⟩
        · cases h1; rfl
        · cases h1; exact h3
      | reset _ h2 _ h3 h1 =>
        obtain ⟨_, _, _, h4, h5⟩ := all (closedB h2)
        rcases h3 with h3 | h3
        · exact absurd h5 h3
        · exact absurd h4 h3
      | fails _ h2 h3 h4 h1 =>
        exfalso
        obtain ⟨_, _, h5, _⟩ := all (closedB h2)
        obtain ⟨p1, _⟩ := pair_inv hp
        have := writeInv p1
        simp only [WriteInv, h3] at this
        obtain ⟨ms, m, sent, e1, e2, e3⟩ := this
        simp only at h5
        rw [e3, e1, List.flatMap_append, List.flatMap_singleton, e2] at h5
        have := List.append_cancel_left h5
        exact h4 (List.append_right_eq_self.1 this.symm)
      | exit _ => have := h.gone.1; cases this
    | right hm =>
      have inA' : ∀ {b' : Side}, Grows l.b b' → l.a.io.inEnd = none ∨
          (l.a.io.inEnd = some false ∧ b'.closed kb = true ∧ l.a.io.arrived = b'.io.out) := by
        intro b' g
        rcases hi.inA with h5 | ⟨h5, h6, h7⟩
        · exact .inl h5
        · refine .inr ⟨h5, grows_closed g h6, ?_⟩
          rw [h7, g.out (closed_ended h0.gone.2 h6).2]
      cases hm with
      | own _ h1 h2 h3 h4 =>
        refine ⟨inA' g2, ?_, hi.wA, wkeep h1 h4 hi.wB⟩
        intro h5
        apply inB'
        intro h6
        apply h5
        cases h1 with
        | hangUp b _ => exact absurd rfl (h3 b)
        | read r _ _ => cases r <;> exact h6
        | _ => exact h6
      | arrive _ _ _ h1 =>
        refine ⟨inA' g2, ?_, hi.wA, wkeep h1 (by simp) hi.wB⟩
        intro h5
        apply inB'
        cases h1; exact h5
      | fin _ h2 _ h1 =>
        exact ⟨inA' g2, fun _ => g2.delivered.subset (closedB (closedA h2)), hi.wA, wkeep h1 (by simp) hi.wB⟩
      | reset _ h2 _ _ h1 =>
        exact ⟨inA' g2, fun _ => g2.delivered.subset (closedB (closedA h2)), hi.wA, wkeep h1 (by simp) hi.wB⟩
      | fails _ h2 h3 _ h1 =>
        exfalso
        have := (closed_ended h0.gone.2 (closedA h2)).2
        simp [h3, Writer.ended] at this
      | exit _ => exact ⟨inA' g2, hi.inB, hi.wA, hi.wB⟩

/-- A writer that has no step left has ended. -/
theorem quiet_writer {ka kb : Kind} {l : Link} (hq : Quiet ka kb l) :
    (l.a.gone = false → l.a.io.txAlive = false → l.a.io.writer.ended = true) ∧
    (l.b.gone = false → l.b.io.txAlive = false → l.b.io.writer.ended = true) := by
  have key : ∀ {k k' : Kind} {x y : Side}, x.gone = false → x.io.txAlive = false → x.io.writer.ended = false →
      ∃ act io, Move k k' x y (.act act) { x with io } ∧ Ev.app (.act act) = false := by
    intro k k' x y hg ht hw
    cases e : x.io.writer with
    | idle => exact ⟨_, _, .own hg (.close _ e ht) (by simp) (by simp) (by simp), rfl⟩
    | writing r =>
      cases r with
      | nil => exact ⟨_, _, .own hg (.written _ e) (by simp) (by simp) (by simp), rfl⟩
      | cons c r => exact ⟨_, _, .own hg (.write _ [c] r e (by simp)) (by simp) (by simp) (by simp), rfl⟩
    | _ => simp [e, Writer.ended] at hw
  constructor
  · intro hg ht
    cases e : l.a.io.writer.ended with
    | true => rfl
    | false =>
      obtain ⟨act, io, h1, h2⟩ := key (k := ka) (k' := kb) (y := l.b) hg ht e
      have := hq _ _ (.left h1)
      rw [h2] at this; cases this
  · intro hg ht
    cases e : l.b.io.writer.ended with
    | true => rfl
    | false =>
      obtain ⟨act, io, h1, h2⟩ := key (k := kb) (k' := ka) (y := l.a) hg ht e
      have := hq _ _ (.right h1)
      rw [h2] at this; cases this

/-- When the right side has ended, having received exit, the reader of the left one receives what is left and ends too. -/
theorem joined_reader {ka kb : Kind} {pre : List Message} {l : Link} (hr : Link.Reachable ka kb l) (h : Spec.Leaving pre l)
    (dB : l.b.io.reader = .done ∧ Message.notification .exit ∈ l.b.io.delivered)
    (wB : l.b.io.writer = .done) (cB : l.b.closed kb = true) (hq : ∀ ev a, Move ka kb l.a l.b ev a → ev.app = true) :
    (l.a.io.reader = .done ∧ l.a.io.delivered = l.b.io.accepted.map Spec.heard) ∧
    l.b.io.delivered = l.a.io.accepted.map Spec.heard := by
  have hi := leaveInv hr h
  obtain ⟨rA, rB⟩ := leave_reader hr h hi
  have hp := link_pair hr
  obtain ⟨p1, p2, p3, p4⟩ := pair_inv hp
  have gA := h.gone.1
  have no : ∀ {ev a}, ev.app = false → ¬ Move ka kb l.a l.b ev a := by
    intro ev a h1 h2
    have := hq _ _ h2
    rw [h1] at this; cases this
  obtain ⟨_, e1, e2, e3, e4⟩ := exit_received hp h.okA h.before h.sentA dB.2
  have dA : l.a.io.reader = .done ∧ l.a.io.inEnd = some false := by
    cases e : l.a.io.reader.ended with
    | true => exact ⟨(rA e).1, (rA e).2.1⟩
    | false =>
      exfalso
      cases e2 : l.a.io.reader with
      | reading =>
        cases e3 : l.a.io.inEnd with
        | none =>
          obtain ⟨t, ht'⟩ := p4
          simp only at ht'
          by_cases hne : t = []
          · rw [hne, List.append_nil] at ht'
            exact no rfl (.fin gA cB ht' (.hangUp _ false e3))
          · exact no rfl (.arrive gA hne (by rw [ht']; exact List.prefix_refl _) (.arrive _ t e3))
        | some b =>
          exact no rfl (.own gA (.read _ (readMsg (⟨l.a.io.unread, b⟩ : Flat)) e2 (by simp [Settled, e3]))
            (by simp) (by simp) (by simp))
      | sending m =>
        exact no rfl (.own gA (.deliver _ m e2 h.rxA) (by simp) (by simp) (by simp))
      | _ => simp [e2, Reader.ended] at e
  have delA : l.a.io.delivered = l.b.io.accepted.map Spec.heard := by
    rcases hi.inA with h1 | ⟨_, _, h3⟩
    · rw [h1] at dA; cases dA.2
    · rcases C55_done p1 dA.1 with ⟨ms, h4⟩ | ⟨_, h4⟩
      · exfalso
        have hx : Message.notification .exit ∈ l.a.io.delivered := by simp only at h4; rw [h4]; simp
        obtain ⟨m, hm, he⟩ := List.mem_map.1 ((C56_heard (pair_swap hp) h.okB).subset hx)
        rw [heard_exit he] at hm
        exact h.sentB hm
      · simp only at h4
        rw [h3, (C54_drained p2 wB).2, C13_heard_stream _ h.okB] at h4
        exact (Prod.mk.inj h4).1.symm
  exact ⟨⟨dA.1, delA⟩, e1⟩

/-- If moreover the left one has written all it had to, all has ended. -/
theorem joined_left {ka kb : Kind} {pre : List Message} {l : Link} (hr : Link.Reachable ka kb l) (h : Spec.Leaving pre l)
    (wA : l.a.io.writer = .done) (dB : l.b.io.reader = .done ∧ Message.notification .exit ∈ l.b.io.delivered)
    (wB : l.b.io.writer = .done) (cB : l.b.closed kb = true) (hq : ∀ ev a, Move ka kb l.a l.b ev a → ev.app = true) :
    (join ka l.a.io = .ok ∧ l.a.io.delivered = l.b.io.accepted.map Spec.heard) ∧
    l.b.io.delivered = l.a.io.accepted.map Spec.heard :=
  have h1 := joined_reader hr h dB wB cB hq
  ⟨⟨C58_ok_iff.2 ⟨h1.1.1, wA⟩, h1.1.2⟩, h1.2⟩

/-- When nothing can happen any more, and the left one has dropped its sender, its writer has written everything and
the right reader has received exit. -/
theorem leaving_got {ka kb : Kind} {pre : List Message} {l : Link} (hr : Link.Reachable ka kb l)
    (h : Spec.Leaving pre l) (hx : l.a.io.accepted = pre ++ [.notification .exit])
    (ht : l.a.io.txAlive = false) (hq : Quiet ka kb l) :
    l.a.io.writer = .done ∧ l.b.io.reader = .done ∧ Message.notification .exit ∈ l.b.io.delivered := by
  have hi := leaveInv hr h
  obtain ⟨rA, rB⟩ := leave_reader hr h hi
  have hp := link_pair hr
  obtain ⟨p1, p2, p3, p4⟩ := pair_inv hp
  have gA := h.gone.1
  have wA : l.a.io.writer = .done := by
    have := (quiet_writer hq).1 gA ht
    cases e : l.a.io.writer with
    | failed => exact absurd e hi.wA.1
    | panicked => exact absurd e hi.wA.2
    | done => rfl
    | _ => simp [e, Writer.ended] at this
  have no : ∀ {ev l'}, ev.app = false → ¬ LinkStep ka kb l ev l' := by
    intro ev l' h1 h2
    have := hq _ _ h2
    rw [h1] at this; cases this
  refine ⟨wA, ?_⟩
  have dB : l.b.io.reader = .done ∧ Message.notification .exit ∈ l.b.io.delivered := by
    cases e : l.b.io.reader.ended with
    | true => exact rB e
    | false =>
      exfalso
      have gB : l.b.gone = false := by
        cases gB : l.b.gone with
        | false => rfl
        | true => have := (h.gone.2 gB).1; rw [e] at this; cases this
      have hnx : Message.notification .exit ∉ l.b.io.delivered := by
        intro hx
        rw [(C52_exit p2 hx).1] at e; cases e
      have hrx : l.b.io.rxAlive = true := h.rxB.resolve_right hnx
      have hin : l.b.io.inEnd = none := by
        cases e2 : l.b.io.inEnd with
        | none => rfl
        | some b => exact absurd (hi.inB (by simp [e2])) hnx
      cases e2 : l.b.io.reader with
      | reading =>
        obtain ⟨t, ht'⟩ := p3
        simp only at ht'
        have harr : l.b.io.arrived = l.a.io.out := by
          by_cases hne : t = []
          · rw [← ht', hne, List.append_nil]
          · exact absurd (.right (.arrive gB hne (by rw [ht']; exact List.prefix_refl _) (.arrive _ t hin)))
              (no rfl)
        have := C56_heard_all hp h.okA (by simp only; rw [harr, (C54_drained p1 wA).2]) e2 (by
          rintro ⟨s', hs'⟩
          exact no rfl (.right (.own gB hs' (by simp) (by simp) (by simp))))
        simp only at this
        apply hnx
        rw [this, hx, List.map_append]
        exact List.mem_append_right _ (List.mem_singleton.2 rfl)
      | sending m =>
        exact no rfl (.right (.own gB (.deliver _ m e2 hrx) (by simp) (by simp) (by simp)))
      | _ => simp [e2, Reader.ended] at e
  exact dB

/-- When nothing can happen any more, the writers have written everything, and the right reader has received exit. -/
theorem leaving_rest {ka kb : Kind} {pre : List Message} {l : Link} (hr : Link.Reachable ka kb l)
    (h : Spec.Leaving pre l) (hx : l.a.io.accepted = pre ++ [.notification .exit])
    (ht : l.a.io.txAlive = false ∧ l.b.io.txAlive = false) (hq : Quiet ka kb l) :
    l.a.io.writer = .done ∧ (l.b.io.reader = .done ∧ Message.notification .exit ∈ l.b.io.delivered) ∧
    l.b.io.writer = .done := by
  have hi := leaveInv hr h
  obtain ⟨wA, dB⟩ := leaving_got hr h hx ht.1 hq
  refine ⟨wA, dB, ?_⟩
  have : l.b.io.writer.ended = true := by
    cases gB : l.b.gone with
    | true => exact (h.gone.2 gB).2
    | false => exact (quiet_writer hq).2 gB ht.2
  cases e : l.b.io.writer with
  | failed => exact absurd e hi.wB.1
  | panicked => exact absurd e hi.wB.2
  | done => rfl
  | _ => simp [e, Writer.ended] at this

/-- C92: two processes connected to each other.  The left one has sent its messages and then exit, the right one
has sent what it had to send, both have dropped their senders and go on receiving (the right one at least up to exit).
When nothing can happen any more - and the right process has exited, if it uses the standard streams - both `join` return
Ok, and each side has received everything that the other has sent. -/
theorem C92_joined {ka kb : Kind} {pre : List Message} {l : Link} (hr : Link.Reachable ka kb l)
    (h : Spec.Leaving pre l) (hx : l.a.io.accepted = pre ++ [.notification .exit])
    (ht : l.a.io.txAlive = false ∧ l.b.io.txAlive = false) (hc : kb = .socket ∨ l.b.gone = true)
    (hq : Quiet ka kb l) :
    (join ka l.a.io = .ok ∧ l.a.io.delivered = l.b.io.accepted.map Spec.heard) ∧
    join kb l.b.io = .ok ∧ l.b.io.delivered = l.a.io.accepted.map Spec.heard := by
  obtain ⟨wA, dB, wB⟩ := leaving_rest hr h hx ht hq
  obtain ⟨h1, h2⟩ := joined_left hr h wA dB wB
    (by rcases hc with rfl | hc <;> simp [Side.closed, dB.1, wB, Reader.ended, Writer.ended, *])
    (fun ev a hm => hq _ _ (.left hm))
  exact ⟨h1, C58_ok_iff.2 ⟨dB.1, wB⟩, h2⟩

/-- C92: when the right process uses the standard streams and has not exited yet, its `join` returns Ok all the same,
and everything has been received; the `join` of the left one waits for the exit. -/
theorem C92_held {ka : Kind} {pre : List Message} {l : Link} (hr : Link.Reachable ka .stdio l)
    (h : Spec.Leaving pre l) (hx : l.a.io.accepted = pre ++ [.notification .exit])
    (ht : l.a.io.txAlive = false ∧ l.b.io.txAlive = false) (hg : l.b.gone = false)
    (hq : Quiet ka .stdio l) :
    (join ka l.a.io = .waiting ∧ l.a.io.delivered = l.b.io.accepted.map Spec.heard) ∧
    join .stdio l.b.io = .ok ∧ l.b.io.delivered = l.a.io.accepted.map Spec.heard := by
  obtain ⟨wA, dB, wB⟩ := leaving_rest hr h hx ht hq
  have hp := link_pair hr
  obtain ⟨p1, p2, p3, p4⟩ := pair_inv hp
  have hi := leaveInv hr h
  have hcl : l.b.closed .stdio = false := by simp [Side.closed, hg]
  have hnone : l.a.io.inEnd = none := by
    rcases hi.inA with h1 | ⟨_, h1, _⟩
    · exact h1
    · rw [hcl] at h1; cases h1
  have hend : l.a.io.reader.ended = false := by
    cases e : l.a.io.reader.ended with
    | false => rfl
    | true =>
      have := ((leave_reader hr h hi).1 e).2.2
      rw [hcl] at this; cases this
  have no : ∀ {ev a}, ev.app = false → ¬ Move ka .stdio l.a l.b ev a := by
    intro ev a h1 h2
    have := hq _ _ (.left h2)
    rw [h1] at this; cases this
  refine ⟨⟨?_, ?_⟩, C58_ok_iff.2 ⟨dB.1, wB⟩, (exit_received hp h.okA h.before h.sentA dB.2).2.1⟩
  · unfold join
    cases e : l.a.io.reader <;> simp [e, Reader.ended] at hend ⊢
  · cases e : l.a.io.reader with
    | sending m => exact absurd (.own h.gone.1 (.deliver _ m e h.rxA) (by simp) (by simp) (by simp)) (no rfl)
    | reading =>
      obtain ⟨t, ht'⟩ := p4
      simp only at ht'
      have harr : l.a.io.arrived = l.b.io.out := by
        by_cases hne : t = []
        · rw [← ht', hne, List.append_nil]
        · exact absurd (.arrive h.gone.1 hne (by rw [ht']; exact List.prefix_refl _) (.arrive _ t hnone)) (no rfl)
      exact C56_heard_all (pair_swap hp) h.okB (harr.trans (C54_drained p2 wB).2) e (by
        rintro ⟨s', hs'⟩
        exact no rfl (.own h.gone.1 hs' (by simp) (by simp) (by simp)))
    | _ => simp [e, Reader.ended] at hend

end

/-! ### Coming to rest -/

section
variable [Ext] [FloatText]

/-- How much is left to do for one side. Proof helper for bsp-server/src/transporter.rs:14-80. -/
def effort (x : State) : Nat :=
  (match x.writer with | .writing r => 4 * r.length + 2 | .idle => 1 | _ => 0) + 2 * x.unread.length +
    (match x.reader with | .reading => 1 | .sending _ => 2 | _ => 0) +
    (match x.inEnd with | none => 1 | some _ => 0)

/-- How much is left to do: on each side, and on the way. Proof helper for bsp-server/src/transporter.rs:14-80. -/
def effortLeft (l : Link) : Nat :=
  effort l.a.io + effort l.b.io + 3 * (l.a.io.out.length - l.b.io.arrived.length) +
    3 * (l.b.io.out.length - l.a.io.arrived.length)

theorem move_effort {k k' : Kind} {x y x' : Side} {ev : Ev} (h : Move k k' x y ev x') (ha : ev.app = false)
    (hxy : x.io.arrived <+: y.io.out) (hyx : y.io.arrived <+: x.io.out) :
    effort x'.io + 3 * (x'.io.out.length - y.io.arrived.length) +
        3 * (y.io.out.length - x'.io.arrived.length) + 1 ≤
      effort x.io + 3 * (x.io.out.length - y.io.arrived.length) + 3 * (y.io.out.length - x.io.arrived.length) := by
  have l1 := hxy.length_le
  have l2 := hyx.length_le
  have hread : ∀ {s s' : State}, Step k s .read s' →
      effort s' + 1 ≤ effort s ∧ s'.out = s.out ∧ s'.arrived = s.arrived := by
    intro s s' hs
    cases hs with
    | read r h1 h2 =>
      cases r with
      | item m rest =>
        refine ⟨?_, rfl, rfl⟩
        have : rest.bytes.length + 1 ≤ s.unread.length := by
          obtain ⟨f, cs, _, _, h5, h6⟩ : ∃ f cs, ∃ b : Bool, ∃ _ : Unit, Spec.IsFrame f cs ∧ s.unread = f ++ rest.bytes := by
            unfold Settled at h2
            cases e : s.inEnd with
            | some b =>
              simp only [e] at h2
              obtain ⟨_, f, cs, _, h5, _, _, _, h6⟩ := readMsg_item_iff.1 h2
              exact ⟨f, cs, b, (), h5, h6⟩
            | none =>
              simp only [e] at h2
              have h3 := h2 [] false
              simp only [List.append_nil] at h3
              obtain ⟨_, f, cs, _, h5, _, _, _, h6⟩ := readMsg_item_iff.1 h3
              exact ⟨f, cs, false, (), h5, h6⟩
          have hne : f ≠ [] := by
            rintro rfl
            obtain ⟨hs, _, _, e⟩ := h5
            simp [blank] at e
          have := List.length_pos_iff.2 hne
          rw [h6, List.length_append]
          omega
        simp only [effort, afterRead, h1]
        omega
      | _ => refine ⟨?_, rfl, rfl⟩; simp only [effort, afterRead, h1]; (first | omega | (cases k <;> simp [readError] <;> omega))
  cases h with
  | own _ h1 h2 h3 h4 =>
    cases h1 with
    | arrive bs _ => exact absurd rfl (h2 bs)
    | hangUp b _ => exact absurd rfl (h3 b)
    | writeFails b _ => exact absurd rfl h4
    | read r h5 h6 =>
      obtain ⟨e1, e2, e3⟩ := hread (.read _ r h5 h6)
      simp only [e2, e3]
      omega
    | deliver m h5 h6 =>
      simp only [effort, h5]
      have : (match afterSend m with | .reading => 1 | .sending _ => 2 | _ => 0) ≤ 1 := by
        unfold afterSend; cases isExit m <;> simp
      omega
    | undeliverable m h5 h6 => simp only [effort, h5]; omega
    | dropRx => cases ha
    | accept m _ _ => cases ha
    | dropTx => cases ha
    | write a b h5 h6 =>
      have := List.length_pos_iff.2 h6
      simp only [effort, h5, List.length_append]
      omega
    | written h5 => simp only [effort, h5, List.length_nil]; omega
    | close h5 _ => simp only [effort, h5]; omega
  | arrive _ h1 h2 h3 =>
    have := List.length_pos_iff.2 h1
    have l3 := h2.length_le
    simp only [List.length_append] at l3
    cases h3 with
    | arrive _ h4 =>
      simp only [effort, List.length_append]
      omega
  | fin _ _ _ h1 =>
    cases h1 with
    | hangUp _ h2 => simp only [effort, h2]; simp; omega
  | reset _ _ _ _ h1 =>
    cases h1 with
    | hangUp _ h2 => simp only [effort, h2]; simp; omega
  | fails _ _ _ _ h1 =>
    cases h1 with
    | writeFails b h2 => simp only [effort, h2]; cases k <;> simp [writeError] <;> omega
  | exit _ => cases ha

theorem link_effort {ka kb : Kind} {l l' : Link} {ev : Ev} (hr : Link.Reachable ka kb l)
    (hs : LinkStep ka kb l ev l') (ha : ev.app = false) : effortLeft l' + 1 ≤ effortLeft l := by
  obtain ⟨_, _, p3, p4⟩ := pair_inv (link_pair hr)
  simp only at p3 p4
  cases hs with
  | left h =>
    have := move_effort h ha p4 p3
    simp only [effortLeft]
    omega
  | right h =>
    have := move_effort h ha p3 p4
    simp only [effortLeft]
    omega

/-- A run of `n` steps in which the applications only receive.
Executions of bsp-server/src/transporter.rs:14-80 on both ends. -/
inductive Link.Runs (ka kb : Kind) : Link → Nat → Link → Prop
  | nil (l) : Runs ka kb l 0 l
  | snoc {l n l' ev l''} : Runs ka kb l n l' → LinkStep ka kb l' ev l'' → ev.app = false →
      Runs ka kb l (n + 1) l''

theorem runs_reachable {ka kb : Kind} {l l' : Link} {n : Nat} (h : Link.Runs ka kb l n l')
    (hr : Link.Reachable ka kb l) : Link.Reachable ka kb l' ∧ n + effortLeft l' ≤ effortLeft l := by
  induction h with
  | nil => exact ⟨hr, by omega⟩
  | snoc _ hs ha ih =>
    have := link_effort ih.1 hs ha
    exact ⟨.step ih.1 hs, by omega⟩

/-- C92: if the applications only receive, the number of steps of the threads and the network is bounded, and
there is a run to a state where nothing can happen any more. -/
theorem C92_rest {ka kb : Kind} {l : Link} (hr : Link.Reachable ka kb l) :
    (∃ bound, ∀ n l', Link.Runs ka kb l n l' → n ≤ bound) ∧
    ∃ n l', Link.Runs ka kb l n l' ∧ Quiet ka kb l' := by
  refine ⟨⟨effortLeft l, fun n l' h => by have := (runs_reachable h hr).2; omega⟩, ?_⟩
  suffices ∀ k n l', effortLeft l' = k → Link.Runs ka kb l n l' → ∃ n l', Link.Runs ka kb l n l' ∧ Quiet ka kb l' by
    exact this _ 0 l rfl (.nil l)
  intro k
  induction k using Nat.strongRecOn with
  | _ k ih =>
    intro n l' he h
    by_cases hq : Quiet ka kb l'
    · exact ⟨n, l', h, hq⟩
    · unfold Quiet at hq
      simp only [Classical.not_forall, Bool.not_eq_true] at hq
      obtain ⟨ev, l'', hs, ha⟩ := hq
      have := link_effort (runs_reachable h hr).1 hs ha
      exact ih (effortLeft l'') (by omega) (n + 1) l'' rfl (.snoc h hs ha)

/-- What only an application can change. -/
theorem move_keeps {k k' : Kind} {x y x' : Side} {ev : Ev} (h : Move k k' x y ev x') (ha : ev.app = false) :
    x'.gone = x.gone ∧ x'.io.accepted = x.io.accepted ∧ x'.io.rxAlive = x.io.rxAlive ∧ x'.io.txAlive = x.io.txAlive := by
  cases h with
  | own _ h1 _ _ _ =>
    cases h1 with
    | accept m _ _ => cases ha
    | dropRx => cases ha
    | dropTx => cases ha
    | read r _ _ => cases r <;> exact ⟨rfl, rfl, rfl, rfl⟩
    | _ => exact ⟨rfl, rfl, rfl, rfl⟩
  | arrive _ _ _ h1 => cases h1; exact ⟨rfl, rfl, rfl, rfl⟩
  | fin _ _ _ h1 => cases h1; exact ⟨rfl, rfl, rfl, rfl⟩
  | reset _ _ _ _ h1 => cases h1; exact ⟨rfl, rfl, rfl, rfl⟩
  | fails _ _ _ _ h1 => cases h1; exact ⟨rfl, rfl, rfl, rfl⟩
  | exit _ => cases ha

theorem runs_keeps {ka kb : Kind} {l l' : Link} {n : Nat} (h : Link.Runs ka kb l n l') :
    (l'.a.gone = l.a.gone ∧ l'.a.io.accepted = l.a.io.accepted ∧ l'.a.io.rxAlive = l.a.io.rxAlive ∧
      l'.a.io.txAlive = l.a.io.txAlive) ∧
    (l'.b.gone = l.b.gone ∧ l'.b.io.accepted = l.b.io.accepted ∧ l'.b.io.rxAlive = l.b.io.rxAlive ∧
      l'.b.io.txAlive = l.b.io.txAlive) ∧ l.b.io.delivered <+: l'.b.io.delivered := by
  induction h with
  | nil => exact ⟨⟨rfl, rfl, rfl, rfl⟩, ⟨rfl, rfl, rfl, rfl⟩, List.prefix_refl _⟩
  | snoc _ hs ha ih =>
    obtain ⟨⟨a1, a2, a3, a4⟩, ⟨b1, b2, b3, b4⟩, hd⟩ := ih
    have hg := (link_grows hs).2.delivered
    cases hs with
    | left h =>
      obtain ⟨c1, c2, c3, c4⟩ := move_keeps h ha
      exact ⟨⟨c1.trans a1, c2.trans a2, c3.trans a3, c4.trans a4⟩, ⟨b1, b2, b3, b4⟩, hd⟩
    | right h =>
      obtain ⟨c1, c2, c3, c4⟩ := move_keeps h ha
      exact ⟨⟨a1, a2, a3, a4⟩, ⟨c1.trans b1, c2.trans b2, c3.trans b3, c4.trans b4⟩, hd.trans hg⟩

end

section
variable [LawfulExt] [FloatText]

omit [LawfulExt] in
/-- What has ended stays so. -/
theorem runs_ended [Ext] {ka kb : Kind} {l l' : Link} {n : Nat} (h : Link.Runs ka kb l n l') :
    l.b.io.reader.ended = true ∧ l.b.io.writer.ended = true →
    l'.b.io.reader.ended = true ∧ l'.b.io.writer.ended = true := by
  induction h with
  | nil => exact id
  | snoc _ hs _ ih =>
    intro h1
    obtain ⟨h2, h3⟩ := ih h1
    have g := (link_grows hs).2
    exact ⟨by rw [g.reader h2]; exact h2, by rw [g.writer h3]; exact h3⟩

/-- C92: hence, once the left side has sent exit, and both have dropped their senders, every run of the threads and the
network comes to an end, and in the end both `join` return Ok and everything has been received. -/
theorem C92_ends {ka kb : Kind} {pre : List Message} {l : Link} (hr : Link.Reachable ka kb l) (h : Spec.Leaving pre l)
    (hx : l.a.io.accepted = pre ++ [.notification .exit])
    (ht : l.a.io.txAlive = false ∧ l.b.io.txAlive = false) (hc : kb = .socket ∨ l.b.gone = true) {n : Nat} {l' : Link}
    (hs : Link.Runs ka kb l n l') (hq : Quiet ka kb l') :
    (join ka l'.a.io = .ok ∧ l'.a.io.delivered = l.b.io.accepted.map Spec.heard) ∧
    join kb l'.b.io = .ok ∧ l'.b.io.delivered = (pre ++ [Message.notification .exit]).map Spec.heard := by
  obtain ⟨⟨a1, a2, a3, a4⟩, ⟨b1, b2, b3, b4⟩, hd⟩ := runs_keeps hs
  have hend : l.b.io.reader.ended = true ∧ l.b.io.writer.ended = true →
      l'.b.io.reader.ended = true ∧ l'.b.io.writer.ended = true := runs_ended hs
  have := C92_joined (pre := pre) (runs_reachable hs hr).1
    ⟨⟨a1.trans h.gone.1, fun e => hend (h.gone.2 (b1.symm.trans e))⟩, by rw [a2]; exact h.okA, by rw [b2]; exact h.okB, h.before,
      by rw [a2]; exact h.sentA, by rw [b2]; exact h.sentB, a3.trans h.rxA,
      h.rxB.imp (fun e => b3.trans e) (fun e => hd.subset e)⟩
    (a2.trans hx) ⟨a4.trans ht.1, b4.trans ht.2⟩ (hc.imp id b1.trans) hq
  rwa [a2, b2, hx] at this

end

/-! ### C93 -/

/-- C93: `connect` returns an error exactly if the operating system gives one, and then nothing is left over; it
returns a connection exactly if all calls succeed, and then the reader and the writer thread run, in this order in
`IoThreads`, and have one descriptor each, and nobody else has one.  If a descriptor cannot be duplicated it panics. -/
theorem C93_connect {ε : Type} (os : Os ε) :
    (∀ e w, connect os {} = (.err e, w) ↔ os.connect = some e ∧ w = {}) ∧
    (∀ t w, connect os {} = (.ok t, w) ↔ os.connect = none ∧ os.clone1 = true ∧ os.clone2 = true ∧
      t = (.reader, .writer) ∧ w = { fds := [.reader, .writer], threads := [.reader, .writer] }) ∧
    ∀ w, connect os {} = (.panic, w) → Owner.main ∉ w.fds ∧ Owner.writer ∉ w.threads ∧ w.fds = w.threads := by
  obtain ⟨c, b, a, k1, k2⟩ := os
  cases c with
  | some e => exact ⟨by simp [connect, eq_comm], by simp [connect], by simp [connect]⟩
  | none =>
    cases k1 <;> cases k2 <;>
      simp [connect, socket, World.drop, World.clone, World.spawn, List.erase] <;> grind

/-- C93: the same for `listen`; the listening socket is closed in every case. -/
theorem C93_listen {ε : Type} (os : Os ε) :
    (∀ e w, listen os {} = (.err e, w) ↔ (os.bind = some e ∨ os.bind = none ∧ os.accept = some e) ∧ w = {}) ∧
    (∀ t w, listen os {} = (.ok t, w) ↔ os.bind = none ∧ os.accept = none ∧ os.clone1 = true ∧ os.clone2 = true ∧
      t = (.reader, .writer) ∧ w = { fds := [.reader, .writer], threads := [.reader, .writer] }) ∧
    ∀ w, listen os {} = (.panic, w) →
      w.listening = false ∧ Owner.main ∉ w.fds ∧ Owner.writer ∉ w.threads ∧ w.fds = w.threads := by
  obtain ⟨c, b, a, k1, k2⟩ := os
  cases b with
  | some e => exact ⟨by simp [listen, eq_comm], by simp [listen], by simp [listen]⟩
  | none =>
    cases a with
    | some e => exact ⟨by simp [listen, eq_comm], by simp [listen], by simp [listen]⟩
    | none =>
      cases k1 <;> cases k2 <;>
        simp [listen, socket, World.drop, World.clone, World.spawn, List.erase] <;> grind

/-! ### Concrete cases -/

section
attribute [local instance] Ext.sample FloatText.sample

/-- Both processes have dropped their connections; nobody has sent anything. -/
def sampleDropped : Link where
  a := { io := { rxAlive := false, txAlive := false, writer := .done } }
  b := { io := { rxAlive := false, txAlive := false, writer := .done } }

theorem sampleDropped_reachable (ka kb : Kind) : Link.Reachable ka kb sampleDropped := by
  have h1 := Link.Reachable.step (ka := ka) (kb := kb) .start
    (.left (.own rfl (.dropRx _) (by simp) (by simp) (by simp)))
  have h2 := Link.Reachable.step h1 (.left (.own rfl (.dropTx _) (by simp) (by simp) (by simp)))
  have h3 := Link.Reachable.step h2 (.left (.own rfl (.close _ rfl rfl) (by simp) (by simp) (by simp)))
  have h4 := Link.Reachable.step h3 (.right (.own rfl (.dropRx _) (by simp) (by simp) (by simp)))
  have h5 := Link.Reachable.step h4 (.right (.own rfl (.dropTx _) (by simp) (by simp) (by simp)))
  exact Link.Reachable.step h5 (.right (.own rfl (.close _ rfl rfl) (by simp) (by simp) (by simp)))

theorem sampleDropped_noExit : Spec.NoExit sampleDropped :=
  ⟨⟨rfl, rfl⟩, by simp [sampleDropped], by simp [sampleDropped]⟩

/-- Beside C91: both joins wait, for ever. -/
example (ka kb : Kind) : (join ka sampleDropped.a.io = .waiting ∧ join kb sampleDropped.b.io = .waiting) ∧
    ∀ ev l', LinkStep ka kb sampleDropped ev l' → l' = sampleDropped ∨ ev = .exit :=
  ⟨C91_no_exit (sampleDropped_reachable ka kb) sampleDropped_noExit, fun _ _ hs =>
    C91_stuck (sampleDropped_reachable ka kb) sampleDropped_noExit ⟨rfl, rfl, rfl⟩ ⟨rfl, rfl, rfl⟩
      ⟨rfl, rfl, rfl⟩ ⟨rfl, rfl, rfl⟩ hs⟩

/-- The left process has sent exit and dropped its sender, the right one has dropped its sender. -/
def sampleLeaving : Link where
  a := { io := { txAlive := false, writer := .writing (Frame.write (.notification .exit)),
                 accepted := [.notification .exit] } }
  b := { io := { txAlive := false } }

theorem sampleLeaving_reachable (ka kb : Kind) : Link.Reachable ka kb sampleLeaving := by
  have h1 := Link.Reachable.step (ka := ka) (kb := kb) .start
    (.left (.own rfl (.accept _ (.notification .exit) rfl rfl) (by simp) (by simp) (by simp)))
  have h2 := Link.Reachable.step h1 (.left (.own rfl (.dropTx _) (by simp) (by simp) (by simp)))
  exact Link.Reachable.step h2 (.right (.own rfl (.dropTx _) (by simp) (by simp) (by simp)))

theorem sampleLeaving_leaving : Spec.Leaving [] sampleLeaving :=
  ⟨⟨rfl, by simp [sampleLeaving]⟩, by
    intro m hm
    simp only [sampleLeaving, List.mem_singleton] at hm
    subst hm
    exact sayable_of exit_ok, by simp [sampleLeaving], by simp, List.prefix_refl _, by simp [sampleLeaving], rfl, .inl rfl⟩

/-- Beside C92: both joins return Ok in the end. -/
example (ka : Kind) : ∃ n l', Link.Runs ka .socket sampleLeaving n l' ∧ join ka l'.a.io = .ok ∧
    join .socket l'.b.io = .ok ∧ l'.b.io.delivered = [.notification .exit] := by
  obtain ⟨n, l', h1, h2⟩ := (C92_rest (sampleLeaving_reachable ka .socket)).2
  have := C92_ends (sampleLeaving_reachable ka .socket) sampleLeaving_leaving rfl ⟨rfl, rfl⟩ (.inl rfl) h1 h2
  exact ⟨n, l', h1, this.1.1, this.2.1, this.2.2⟩

/-- Beside C93: an address in use; a second descriptor that cannot be had, which leaves the reader thread running. -/
example : listen (ε := String) ⟨none, some "address in use", none, true, true⟩ {} = (.err "address in use", {}) ∧
    connect (ε := String) ⟨none, none, none, true, false⟩ {} =
      (.panic, { fds := [.reader], threads := [.reader] }) := ⟨rfl, rfl⟩

end
end Bsp
