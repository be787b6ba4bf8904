/-
C123: a client that never stops sending, and the server, scheduled fairly, with finite buffers between them.
-/
import Verif.Fair
import Verif.Props.Flow

namespace Bsp
open Frame Json Transport
open Link (Move LinkStep Side)
open Conn (Dbg reply)
open Session (Proc App onRecv onSent toSend kindOf)
open EndToEnd (World side)
open Flow (Caps Asks Lets)
open Fair (Actor Acts Run Scheduled ServerIo)

section
variable [LawfulExt] [Dbg] [FloatText] {process : InitializeBuild → Option Value}
variable {c : Caps} {kc ks : Kind}

/-- The client is there, goes on receiving, and what it has sent so far is the beginning of a session. -/
def Spec.GoesOn (process : InitializeBuild → Option Value) (w : World) : Prop :=
  ∃ said early id ip v pre, Spec.Plan process said early id ip v pre ∧ Spec.Says said w

/-! ### What is still to be done, up to a certain byte and a certain message -/

omit [Dbg] [FloatText] in
/-- On the receiving side: up to `a` bytes, and up to `n` messages. -/
def inLeft (a n : Nat) (s : State) : Nat :=
  (a + 1 - s.arrived.length) + 2 * (n + 1 - s.delivered.length) +
    match s.reader with
    | .reading => if s.delivered.length ≤ n then 1 else 0
    | _ => 0

omit [Dbg] [FloatText] in
/-- On the sending side. -/
def outLeft (a n : Nat) (s : State) : Nat :=
  (a + 1 - s.out.length) + 2 * (n + 1 - s.accepted.length) +
    match s.writer with
    | .writing _ => if s.accepted.length ≤ n + 1 then 1 else 0
    | _ => 0

omit [Dbg] in
theorem left_step {k : Kind} {s s' : State} {act : Transport.Act} (h : Transport.Step k s act s') (a n : Nat) :
    inLeft a n s' ≤ inLeft a n s ∧ outLeft a n s' ≤ outLeft a n s := by
  cases h with
  | arrive bs => simp only [inLeft, outLeft, List.length_append]; omega
  | read r h1 h2 =>
    refine ⟨?_, by cases r <;> exact Nat.le_refl _⟩
    cases r <;> simp only [afterRead, inLeft, h1] <;> first | omega | (cases k <;> simp only [readError] <;> omega)
  | deliver m h1 h2 =>
    refine ⟨?_, Nat.le_refl _⟩
    simp only [inLeft, h1, afterSend, List.length_append, List.length_singleton]
    split
    · split <;> omega
    · omega
  | undeliverable m h1 => simp only [inLeft, outLeft, h1]; omega
  | accept m h1 h2 =>
    refine ⟨Nat.le_refl _, ?_⟩
    simp only [outLeft, h1, List.length_append, List.length_singleton]
    split <;> omega
  | write x y h1 =>
    refine ⟨Nat.le_refl _, ?_⟩
    simp only [outLeft, h1, List.length_append]
    omega
  | written h1 => simp only [inLeft, outLeft, h1]; omega
  | writeFails b h1 =>
    refine ⟨Nat.le_refl _, ?_⟩
    simp only [outLeft, h1]
    cases k <;> simp only [writeError] <;> omega
  | close h1 => simp only [inLeft, outLeft, h1]; omega
  | _ => exact ⟨Nat.le_refl _, Nat.le_refl _⟩

/-! ### Who can do something useful -/

omit [Dbg] in
/-- The reader thread can. -/
def CanRead (n : Nat) (s : State) : Prop := s.reader = .reading ∧ (∃ r, Settled s r) ∧ s.delivered.length ≤ n

omit [Dbg] [FloatText] in
/-- The application can receive. -/
def CanHand (n : Nat) (s : State) : Prop := (∃ m, s.reader = .sending m) ∧ s.delivered.length ≤ n

omit [Dbg] in
/-- Bytes can arrive from `y`. -/
def CanTake (a : Nat) (s y : State) : Prop := Asks s ∧ s.arrived.length < y.out.length ∧ s.arrived.length ≤ a

omit [Dbg] [FloatText] in
/-- The writer thread can. -/
def CanWrite (cap a n : Nat) (s y : State) : Prop :=
  (∃ b r, s.writer = .writing (b :: r) ∧ s.out.length + 1 ≤ y.arrived.length + cap ∧ s.out.length ≤ a) ∨
  (s.writer = .writing [] ∧ s.accepted.length ≤ n + 1)

omit [Dbg] in
theorem canRead_keeps {k : Kind} {n : Nat} {s s' : State} {act : Transport.Act} (h : Transport.Step k s act s')
    (hc : CanRead n s) (h1 : act ≠ .read) (h2 : s'.arrived = s.arrived ∨ Asks s) (h3 : s'.inEnd = none) :
    CanRead n s' := by
  obtain ⟨c1, ⟨r, c2⟩, c3⟩ := hc
  cases h with
  | arrive bs =>
    rcases h2 with h2 | h2
    · have : bs = [] := by simpa using h2
      subst this
      exact ⟨c1, ⟨r, by simpa [Settled] using c2⟩, c3⟩
    · exact absurd c2 (h2.2 r)
  | hangUp => cases h3
  | read => exact absurd rfl h1
  | deliver m i1 => rw [c1] at i1; cases i1
  | undeliverable m i1 => rw [c1] at i1; cases i1
  | _ => exact ⟨c1, ⟨r, c2⟩, c3⟩

omit [Dbg] in
theorem canHand_keeps {k : Kind} {n : Nat} {s s' : State} {act : Transport.Act} (h : Transport.Step k s act s')
    (hc : CanHand n s) (h1 : ∀ m, act ≠ .deliver m) (h2 : s'.reader.ended = false) : CanHand n s' := by
  obtain ⟨⟨m, c1⟩, c3⟩ := hc
  cases h with
  | read r i1 => rw [c1] at i1; cases i1
  | deliver m => exact absurd rfl (h1 m)
  | undeliverable m i1 => cases h2
  | _ => exact ⟨⟨m, c1⟩, c3⟩

omit [Dbg] in
theorem canTake_keeps {k : Kind} {a : Nat} {s s' y y' : State} {act : Transport.Act} (h : Transport.Step k s act s')
    (hc : CanTake a s y) (h1 : ∀ bs, act ≠ .arrive bs) (h3 : s'.inEnd = none) (hy : y.out <+: y'.out) :
    CanTake a s' y' := by
  obtain ⟨⟨c0, c1⟩, c2, c3⟩ := hc
  have hl := hy.length_le
  cases h with
  | arrive bs => exact absurd rfl (h1 bs)
  | hangUp => cases h3
  | read r _ i1 => exact absurd i1 (c1 r)
  | deliver m i1 => rw [c0] at i1; cases i1
  | undeliverable m i1 => rw [c0] at i1; cases i1
  | _ => exact ⟨⟨c0, c1⟩, Nat.lt_of_lt_of_le c2 hl, c3⟩

omit [Dbg] in
theorem canWrite_keeps {k : Kind} {cap a n : Nat} {s s' y y' : State} {act : Transport.Act}
    (h : Transport.Step k s act s') (hc : CanWrite cap a n s y) (h1 : act ≠ .written) (h2 : ∀ bs, act ≠ .write bs)
    (h3 : act ≠ .writeFails) (hy : y.arrived <+: y'.arrived) : CanWrite cap a n s' y' := by
  have hl := hy.length_le
  have hw : ∃ r, s.writer = .writing r := by
    rcases hc with ⟨b, r, h, _⟩ | ⟨h, _⟩
    · exact ⟨_, h⟩
    · exact ⟨_, h⟩
  have key : s'.writer = s.writer → s'.out = s.out → s'.accepted = s.accepted → CanWrite cap a n s' y' := by
    intro e1 e2 e3
    rcases hc with ⟨b, r, h4, h5, h6⟩ | ⟨h4, h5⟩
    · exact .inl ⟨b, r, by rw [e1, h4], by rw [e2]; omega, by rw [e2]; exact h6⟩
    · exact .inr ⟨by rw [e1, h4], by rw [e3]; exact h5⟩
  obtain ⟨r, hw⟩ := hw
  cases h with
  | accept m i1 => rw [hw] at i1; cases i1
  | close i1 => rw [hw] at i1; cases i1
  | write x => exact absurd rfl (h2 x)
  | written => exact absurd rfl h1
  | writeFails => exact absurd rfl h3
  | read r => cases r <;> exact key rfl rfl rfl
  | _ => exact key rfl rfl rfl

/-- How many bytes and messages in each direction. -/
structure Marks where
  toServer : Nat
  heard : Nat
  toClient : Nat
  answers : Nat

omit [Dbg] in
/-- All that is left. -/
def allLeft (t : Marks) (w : World) : Nat :=
  inLeft t.toClient t.answers w.client.io + outLeft t.toServer t.heard w.client.io +
    (inLeft t.toServer t.heard w.server.io + outLeft t.toClient t.answers w.server.io)

/-- Somebody can do something about it. -/
def Useful (c : Caps) (t : Marks) (w : World) : Actor → Prop
  | .clientReader => CanRead t.answers w.client.io
  | .clientWriter => CanWrite c.toRight t.toServer t.heard w.client.io w.server.io
  | .clientInput => CanTake t.toClient w.client.io w.server.io
  | .clientReceives => CanHand t.answers w.client.io
  | .serverReader => CanRead t.heard w.server.io
  | .serverWriter => CanWrite c.toLeft t.toClient t.answers w.server.io w.client.io
  | .serverInput => CanTake t.toServer w.server.io w.client.io
  | .serverMain => (w.server.app.receives = true ∧ CanHand t.heard w.server.io) ∨
      ((∃ m, toSend w.server.app = some m) ∧ w.server.io.writer = .idle ∧ w.server.io.accepted.length ≤ t.answers)

/-- The state of the connection of one side after a step of the other or of its own. -/
theorem world_io {w w' : World} {a : EndToEnd.Ev} (h : EndToEnd.Step kc ks process w a w') :
    ((∃ e, a = .client e) ∧ w'.server = w.server ∧
      ((∃ act, a = .client (.act act) ∧ Transport.Step kc w.client.io act w'.client.io) ∨ w'.client.io = w.client.io)) ∨
    ((∃ e, a = .server e) ∧ w'.client = w.client ∧
      ((∃ act, Transport.Step ks w.server.io act w'.server.io) ∨ w'.server.io = w.server.io)) := by
  cases h with
  | client hm =>
    refine .inl ⟨⟨_, rfl⟩, rfl, ?_⟩
    rcases move_step hm with ⟨act, rfl, h1, _⟩ | ⟨_, h1⟩
    · exact .inl ⟨act, rfl, h1⟩
    · exact .inr h1
  | server hst hpe =>
    refine .inr ⟨⟨_, rfl⟩, rfl, ?_⟩
    rcases (server_move hst hpe).2 with hm | ⟨ev, hm⟩
    · exact .inr (by simpa only [side] using congrArg Side.io hm)
    · rcases move_step hm with ⟨act, _, h1, _⟩ | ⟨_, h1⟩
      · exact .inl ⟨act, h1⟩
      · exact .inr h1

theorem allLeft_step (t : Marks) {w w' : World} {a : EndToEnd.Ev} (h : EndToEnd.Step kc ks process w a w') :
    allLeft t w' ≤ allLeft t w := by
  unfold allLeft
  rcases world_io h with ⟨_, h1, h2⟩ | ⟨_, h1, h2⟩
  · rw [h1]
    rcases h2 with ⟨act, _, h2⟩ | h2
    · have i1 := (left_step h2 t.toClient t.answers).1
      have i2 := (left_step h2 t.toServer t.heard).2
      omega
    · rw [h2]; omega
  · rw [h1]
    rcases h2 with ⟨act, h2⟩ | h2
    · have i1 := (left_step h2 t.toServer t.heard).1
      have i2 := (left_step h2 t.toClient t.answers).2
      omega
    · rw [h2]; omega

/-! ### What they do counts -/

omit [Dbg] in
theorem read_less {k : Kind} {a n : Nat} {s s' : State} (h : Transport.Step k s .read s') (hc : CanRead n s) :
    inLeft a n s' < inLeft a n s ∧ ∀ a n, outLeft a n s' = outLeft a n s := by
  obtain ⟨c1, _, c3⟩ := hc
  cases h with
  | read r h1 h2 =>
    refine ⟨?_, by cases r <;> exact fun _ _ => rfl⟩
    cases r <;> simp only [afterRead, inLeft, h1, c3, if_true] <;> first | omega | (cases k <;> simp only [readError] <;> omega)

omit [Dbg] in
theorem hand_less {k : Kind} {a n : Nat} {s s' : State} {m : Message} (h : Transport.Step k s (.deliver m) s')
    (hc : CanHand n s) : inLeft a n s' < inLeft a n s ∧ ∀ a n, outLeft a n s' = outLeft a n s := by
  obtain ⟨_, c3⟩ := hc
  cases h with
  | deliver m h1 h2 =>
    refine ⟨?_, fun _ _ => rfl⟩
    simp only [inLeft, h1, afterSend, List.length_append, List.length_singleton]
    split
    · split <;> omega
    · omega

omit [Dbg] in
theorem take_less {k : Kind} {a n : Nat} {s s' y : State} {bs : Bytes} (h : Transport.Step k s (.arrive bs) s')
    (hc : CanTake a s y) (hb : bs ≠ []) : inLeft a n s' < inLeft a n s ∧ ∀ a n, outLeft a n s' = outLeft a n s := by
  obtain ⟨_, _, c3⟩ := hc
  have : 0 < bs.length := List.length_pos_iff.2 hb
  cases h with
  | arrive bs =>
    refine ⟨?_, fun _ _ => rfl⟩
    simp only [inLeft, List.length_append]
    omega

omit [Dbg] in
theorem write_less {k : Kind} {cap a n : Nat} {s s' y : State} {act : Transport.Act} (h : Transport.Step k s act s')
    (hc : CanWrite cap a n s y) (ha : act = .written ∨ ∃ bs, act = .write bs) :
    outLeft a n s' < outLeft a n s ∧ ∀ a n, inLeft a n s' = inLeft a n s := by
  cases h with
  | written h1 =>
    refine ⟨?_, fun _ _ => rfl⟩
    rcases hc with ⟨b, r, h2, _⟩ | ⟨_, h2⟩
    · rw [h1] at h2; cases h2
    · simp only [outLeft, h1, h2, if_true]; omega
  | write x y h1 h2 =>
    refine ⟨?_, fun _ _ => rfl⟩
    have : 0 < x.length := List.length_pos_iff.2 h2
    rcases hc with ⟨b, r, h3, _, h4⟩ | ⟨h3, _⟩
    · simp only [outLeft, h1, List.length_append]; omega
    · rw [h1] at h3
      simp only [Writer.writing.injEq, List.append_eq_nil_iff] at h3
      exact absurd h3.1 h2
  | _ => rcases ha with ha | ⟨_, ha⟩ <;> cases ha

omit [Dbg] in
theorem accept_less {k : Kind} {a n : Nat} {s s' : State} {m : Message} (h : Transport.Step k s (.accept m) s')
    (hc : s.accepted.length ≤ n) : outLeft a n s' < outLeft a n s ∧ ∀ a n, inLeft a n s' = inLeft a n s := by
  cases h with
  | accept m h1 h2 =>
    refine ⟨?_, fun _ _ => rfl⟩
    simp only [outLeft, h1, List.length_append, List.length_singleton]
    split <;> omega

variable {said : List Message} {early : List Request} {id : RequestId} {ip : InitializeBuild} {v : Value}
  {pre : List Message}

/-- What a useful actor does counts. -/
theorem useful_less {t : Marks} {w w' : World} {i : Actor} (hu : Useful c t w i)
    (h : Acts c kc ks process i w w') {bs : List Session.Act} (ht : Talking kc ks process bs w) :
    allLeft t w' < allLeft t w := by
  have cl : ∀ {act}, Flow.Step c kc ks process w (.client (.act act)) w' →
      w'.server = w.server ∧ Transport.Step kc w.client.io act w'.client.io ∧ ∀ bs, act = .arrive bs → bs ≠ [] := by
    intro act h
    have h := h.step
    cases h with
    | client hm =>
      refine ⟨rfl, ?_, ?_⟩
      · rcases move_step hm with ⟨act, h0, h1, _⟩ | ⟨h0, _⟩
        · cases h0; exact h1
        · cases h0
      · rintro bs rfl
        cases hm with
        | own _ _ h2 => exact absurd rfl (h2 bs)
        | arrive _ h2 => exact h2
  unfold allLeft
  cases i with
  | clientReader =>
    obtain ⟨h1, h2, _⟩ := cl h
    obtain ⟨h3, h4⟩ := read_less (a := t.toClient) h2 hu
    rw [h1, h4]; omega
  | clientWriter =>
    obtain ⟨act, ha, h⟩ := h
    obtain ⟨h1, h2, _⟩ := cl h
    obtain ⟨h3, h4⟩ := write_less h2 hu ha
    rw [h1, h4]; omega
  | clientInput =>
    obtain ⟨bs, h⟩ := h
    obtain ⟨h1, h2, h0⟩ := cl h
    obtain ⟨h3, h4⟩ := take_less (n := t.answers) h2 hu (h0 bs rfl)
    rw [h1, h4]; omega
  | clientReceives =>
    obtain ⟨bs, h⟩ := h
    obtain ⟨h1, h2, h0⟩ := cl h
    obtain ⟨h3, h4⟩ := hand_less (a := t.toClient) h2 hu
    rw [h1, h4]; omega
  | serverReader =>
    obtain ⟨_, act, io, rfl, h2, rfl⟩ := h
    obtain ⟨h3, h4⟩ := read_less (a := t.toServer) h2 hu
    simp only [h4]; omega
  | serverWriter =>
    obtain ⟨_, act, io, ha, h2, rfl⟩ := h
    obtain ⟨h3, h4⟩ := write_less h2 hu ha
    simp only [h4]; omega
  | serverInput =>
    obtain ⟨_, act, io, ⟨bs, hne, rfl⟩, h2, rfl⟩ := h
    obtain ⟨h3, h4⟩ := take_less (n := t.heard) h2 hu hne
    simp only [h4]; omega
  | serverMain =>
    have h := h.step
    have hgo : ∀ {q}, Session.Step ks process w.server .main q →
        inLeft t.toServer t.heard q.io + outLeft t.toClient t.answers q.io <
          inLeft t.toServer t.heard w.server.io + outLeft t.toClient t.answers w.server.io := by
      intro q hq
      cases hq with
      | io _ h1 h2 => cases h1 <;> cases h2
      | @recv m io' _ h1 h2 =>
        rcases hu with ⟨_, hu⟩ | ⟨⟨m', hu⟩, _⟩
        · obtain ⟨h3, h4⟩ := hand_less (a := t.toServer) h2 hu
          simp only [h4]; omega
        · rw [receives_toSend h1] at hu; cases hu
      | closed _ _ h1 => rw [ht.readS] at h1; cases h1
      | @send m io' _ h1 h2 =>
        rcases hu with ⟨hu, _⟩ | ⟨_, _, hu⟩
        · rw [receives_toSend hu] at h1; cases h1
        · obtain ⟨h3, h4⟩ := accept_less (a := t.toClient) h2 hu
          simp only [h4]; omega
      | unsent _ h0 h1 =>
        rcases hu with ⟨hu, _⟩ | ⟨_, hu, _⟩
        · rw [receives_toSend hu] at h0; cases h0
        · rw [hu] at h1; cases h1
    cases h with
    | server hst _ =>
      have := hgo hst
      simp only
      omega

omit [Dbg] in
theorem arrive_some {k k' : Kind} {x y x' : Side} {bs : Bytes} (h : Move k k' x y (.act (.arrive bs)) x') : bs ≠ [] := by
  cases h with
  | own _ _ h2 => exact absurd rfl (h2 bs)
  | arrive _ h2 => exact h2

/-- A step that brings bytes to the server brings some. -/
theorem peer_some {w w' : World} (h : Flow.Step c kc ks process w (.server .peer) w') (hi : w'.server.io.inEnd = none) :
    ServerIo ks (fun act => ∃ bs, bs ≠ [] ∧ act = .arrive bs) w w' := by
  have h := h.step
  cases h with
  | server hst hpe =>
    obtain ⟨act, h1, h2⟩ := hpe (.inl rfl)
    cases hst with
    | @io _ _ io' hx h3 h4 =>
      refine ⟨_, io', ?_, h3, rfl⟩
      cases h3 with
      | arrive bs hn =>
        refine ⟨bs, ?_, rfl⟩
        rintro rfl
        have hne : ∀ bs, act = .arrive bs → bs ≠ [] := fun bs e => arrive_some (e ▸ h2)
        rcases move_step h2 with ⟨act', e, h5, _⟩ | ⟨e, _⟩
        · cases e
          simp only [side] at h5
          generalize hq : ({ w.server.io with arrived := w.server.io.arrived ++ [], unread := w.server.io.unread ++ [] } : State) = q at h5
          cases h5 <;> cases h1
          · rename_i bs hb
            have e := congrArg State.arrived hq
            have : bs = [] := by simpa using e.symm
            exact hne bs rfl this
          · have e := congrArg State.inEnd hq
            simp only [hn] at e
            cases e
        · cases e
      | hangUp => cases hi
      | _ => cases h4

/-! ### They stay useful -/

theorem grows_world {w w' : World} {a : EndToEnd.Ev} (h : EndToEnd.Step kc ks process w a w') :
    w.client.io.out <+: w'.client.io.out ∧ w.server.io.out <+: w'.server.io.out ∧
    w.client.io.arrived <+: w'.client.io.arrived ∧ w.server.io.arrived <+: w'.server.io.arrived := by
  have key : ∀ {k : Kind} {s s' : State} {act : Transport.Act}, Transport.Step k s act s' →
      s.out <+: s'.out ∧ s.arrived <+: s'.arrived := by
    intro k s s' act h
    cases h with
    | read r => cases r <;> exact ⟨List.prefix_refl _, List.prefix_refl _⟩
    | arrive => exact ⟨List.prefix_refl _, List.prefix_append _ _⟩
    | write => exact ⟨List.prefix_append _ _, List.prefix_refl _⟩
    | _ => exact ⟨List.prefix_refl _, List.prefix_refl _⟩
  rcases world_io h with ⟨_, h1, h2⟩ | ⟨_, h1, h2⟩
  · rw [h1]
    rcases h2 with ⟨act, _, h2⟩ | h2
    · exact ⟨(key h2).1, List.prefix_refl _, (key h2).2, List.prefix_refl _⟩
    · rw [h2]; exact ⟨List.prefix_refl _, List.prefix_refl _, List.prefix_refl _, List.prefix_refl _⟩
  · rw [h1]
    rcases h2 with ⟨act, h2⟩ | h2
    · exact ⟨List.prefix_refl _, (key h2).1, List.prefix_refl _, (key h2).2⟩
    · rw [h2]; exact ⟨List.prefix_refl _, List.prefix_refl _, List.prefix_refl _, List.prefix_refl _⟩

/-- What the steps of the server are. -/
theorem server_acts {w w' : World} {a : Session.Act} (h : Flow.Step c kc ks process w (.server a) w')
    {bs bs' : List Session.Act} (ht : Talking kc ks process bs w) (ht' : Talking kc ks process bs' w') :
    (∃ act, Transport.Step ks w.server.io act w'.server.io ∧ w'.server.app = w.server.app ∧
      (∀ m, act ≠ .accept m) ∧ (∀ m, act ≠ .deliver m) ∧ act ≠ .close ∧ act ≠ .undeliverable ∧ act ≠ .writeFails ∧
      (act = .read → Acts c kc ks process .serverReader w w') ∧
      (act = .written ∨ (∃ bs, act = .write bs) → Acts c kc ks process .serverWriter w w') ∧
      ((∃ bs, act = .arrive bs) → Acts c kc ks process .serverInput w w')) ∨
    Acts c kc ks process .serverMain w w' := by
  have h0 := h
  have hp := peer_some (c := c) (kc := kc) (ks := ks) (process := process) (w := w) (w' := w')
  obtain ⟨hst, _⟩ := h
  cases hst with
  | server hst hpe =>
    cases hst with
    | @io act0 _ io' hx h1 h2 =>
      refine .inl ⟨act0, h1, rfl, ?_, ?_, ?_, ?_, ?_, ?_, ?_, ?_⟩
      · rintro m rfl; cases h2
      · rintro m rfl; cases h2
      · rintro rfl
        cases h1 with
        | close _ e => obtain ⟨r, h3⟩ := (mainInv ht.sess).gone (.inr e); exact ht.goes r h3
      · rintro rfl
        have := ht'.readS
        cases h1; cases this
      · rintro rfl
        have := no_fail ht'.sess ht'.wrote
        cases h1; exact this rfl
      · rintro rfl; cases h2; exact ⟨h0, _, io', rfl, h1, rfl⟩
      · rintro (rfl | ⟨b, rfl⟩) <;> cases h2
        · exact ⟨h0, _, io', .inl rfl, h1, rfl⟩
        · exact ⟨h0, _, io', .inr ⟨b, rfl⟩, h1, rfl⟩
      · rintro ⟨b, rfl⟩; cases h2; exact ⟨h0, hp h0 ht'.inS⟩
    | recv => exact .inr h0
    | closed => exact .inr h0
    | send => exact .inr h0
    | unsent => exact .inr h0
    | timeout => exact absurd rfl (ht'.goes _)
    | dropRx _ h1 => exact absurd h1 (ht.goes _)
    | dropTx _ h1 => exact absurd h1 (ht.goes _)
    | abort _ h1 => exact absurd h1 (ht.goes _)
    | finish _ h1 => exact absurd h1 (ht.goes _)

omit [Dbg] in
theorem failed_writer {k : Kind} {s s' : State} (h : Transport.Step k s .writeFails s') : s'.writer = writeError k := by
  cases h; rfl

/-- What the steps of the client are. -/
theorem client_acts {w w' : World} {e : Link.Ev} (h : Flow.Step c kc ks process w (.client e) w')
    {bs' : List Session.Act} (ht' : Talking kc ks process bs' w') (hg : w'.client.gone = false) :
    ∃ act, e = .act act ∧ Transport.Step kc w.client.io act w'.client.io ∧ act ≠ .writeFails := by
  have hst := h.step
  cases hst with
  | client hm =>
    rcases move_step hm with ⟨act, rfl, h1, _⟩ | ⟨rfl, _⟩
    · refine ⟨act, rfl, h1, ?_⟩
      rintro rfl
      have := ht'.writeC
      rw [failed_writer h1] at this
      cases kc
      · exact this.1 rfl
      · exact this.2 rfl
    · cases hm; cases hg

theorem useful_keeps {t : Marks} {w w' : World} {a : EndToEnd.Ev} (h : Flow.Step c kc ks process w a w')
    {bs bs' : List Session.Act} (ht : Talking kc ks process bs w) (ht' : Talking kc ks process bs' w')
    (hg : w'.client.gone = false) {i : Actor} (hu : Useful c t w i) (hn : ¬ Acts c kc ks process i w w') :
    Useful c t w' i := by
  obtain ⟨gco, gso, gca, gsa⟩ := grows_world h.step
  have hl := h.lets
  cases a with
  | client e =>
    obtain ⟨act, rfl, h1, h2⟩ := client_acts h ht' hg
    have hsv : w'.server = w.server := by have := h.step; cases this; rfl
    cases i with
    | clientReader =>
      refine canRead_keeps h1 hu ?_ hl.takesA ht'.inC
      rintro rfl; exact hn h
    | clientWriter =>
      refine canWrite_keeps h1 hu ?_ ?_ h2 gsa
      · rintro rfl; exact hn ⟨_, .inl rfl, h⟩
      · rintro b rfl; exact hn ⟨_, .inr ⟨b, rfl⟩, h⟩
    | clientInput =>
      refine canTake_keeps h1 hu ?_ ht'.inC gso
      rintro b rfl; exact hn ⟨_, h⟩
    | clientReceives =>
      refine canHand_keeps h1 hu ?_ ht'.readC
      rintro b rfl; exact hn ⟨_, h⟩
    | serverReader => simpa only [Useful, hsv] using hu
    | serverWriter =>
      simp only [Useful, hsv] at hu ⊢
      have hl := gca.length_le
      rcases hu with ⟨b, r, h3, h4, h5⟩ | hu
      · exact .inl ⟨b, r, h3, by omega, h5⟩
      · exact .inr hu
    | serverInput =>
      simp only [Useful, hsv] at hu ⊢
      have hl := gco.length_le
      exact ⟨hu.1, Nat.lt_of_lt_of_le hu.2.1 hl, hu.2.2⟩
    | serverMain => simpa only [Useful, hsv] using hu
  | server a =>
    have hcl : w'.client = w.client := by have := h.step; cases this; rfl
    have keepW : ∀ {cap a n}, CanWrite cap a n w.client.io w.server.io → CanWrite cap a n w'.client.io w'.server.io := by
      intro cap a n hu
      have hl := gsa.length_le
      rw [hcl]
      rcases hu with ⟨b, r, h3, h4, h5⟩ | hu
      · exact .inl ⟨b, r, h3, by omega, h5⟩
      · exact .inr hu
    have keepT : ∀ {a}, CanTake a w.client.io w.server.io → CanTake a w'.client.io w'.server.io := by
      intro a hu
      have hl := gso.length_le
      rw [hcl]
      exact ⟨hu.1, Nat.lt_of_lt_of_le hu.2.1 hl, hu.2.2⟩
    rcases server_acts h ht ht' with ⟨act, h1, happ, n1, n2, n3, n4, n5, a1, a2, a3⟩ | hmain
    · cases i with
      | clientReader => simpa only [Useful, hcl] using hu
      | clientWriter => exact keepW hu
      | clientInput => exact keepT hu
      | clientReceives => simpa only [Useful, hcl] using hu
      | serverReader =>
        refine canRead_keeps h1 hu ?_ hl.takesB ht'.inS
        intro e; exact hn (a1 e)
      | serverWriter =>
        refine canWrite_keeps h1 hu ?_ ?_ n5 gca
        · intro e; exact hn (a2 (.inl e))
        · intro b e; exact hn (a2 (.inr ⟨b, e⟩))
      | serverInput =>
        refine canTake_keeps h1 hu ?_ ht'.inS gco
        intro b e; exact hn (a3 ⟨b, e⟩)
      | serverMain =>
        rcases hu with ⟨h3, h4⟩ | ⟨h3, h4, h5⟩
        · exact .inl ⟨by rw [happ]; exact h3, canHand_keeps h1 h4 n2 ht'.readS⟩
        · refine .inr ⟨by rw [happ]; exact h3, ?_⟩
          generalize w'.server.io = q at h1
          cases h1 with
          | accept m => exact absurd rfl (n1 m)
          | close => exact absurd rfl n3
          | write _ _ e => rw [h4] at e; cases e
          | written e => exact ⟨rfl, h5⟩
          | writeFails => exact absurd rfl n5
          | read r => cases r <;> exact ⟨h4, h5⟩
          | _ => exact ⟨h4, h5⟩
    · have hm : (∃ act, Transport.Step ks w.server.io act w'.server.io ∧
          ((∃ m, act = .accept m) ∨ ∃ m, act = .deliver m)) ∨ w'.server.io = w.server.io := by
        have hst := Flow.Step.step hmain
        cases hst with
        | server hst _ =>
          cases hst with
          | io _ h1 h2 => cases h1 <;> cases h2
          | recv _ _ h1 => exact .inl ⟨_, h1, .inr ⟨_, rfl⟩⟩
          | send _ _ h1 => exact .inl ⟨_, h1, .inl ⟨_, rfl⟩⟩
          | closed => exact .inr rfl
          | unsent => exact .inr rfl
      cases i with
      | clientReader => simpa only [Useful, hcl] using hu
      | clientWriter => exact keepW hu
      | clientInput => exact keepT hu
      | clientReceives => simpa only [Useful, hcl] using hu
      | serverReader =>
        rcases hm with ⟨act, h1, h2⟩ | h1
        · exact canRead_keeps h1 hu (by rcases h2 with ⟨m, rfl⟩ | ⟨m, rfl⟩ <;> simp) hl.takesB ht'.inS
        · simpa only [Useful, h1] using hu
      | serverWriter =>
        rcases hm with ⟨act, h1, h2⟩ | h1
        · exact canWrite_keeps h1 hu (by rcases h2 with ⟨m, rfl⟩ | ⟨m, rfl⟩ <;> simp)
            (by rcases h2 with ⟨m, rfl⟩ | ⟨m, rfl⟩ <;> simp) (by rcases h2 with ⟨m, rfl⟩ | ⟨m, rfl⟩ <;> simp) gca
        · simpa only [Useful, h1, hcl] using hu
      | serverInput =>
        rcases hm with ⟨act, h1, h2⟩ | h1
        · exact canTake_keeps h1 hu (by rcases h2 with ⟨m, rfl⟩ | ⟨m, rfl⟩ <;> simp) ht'.inS gco
        · simpa only [Useful, h1, hcl] using hu
      | serverMain => exact absurd hmain hn

/-! ### They can act -/

theorem useful_can {t : Marks} {w : World} {bs : List Session.Act} (ht : Talking kc ks process bs w)
    (hg : w.client.gone = false) (hr : w.client.io.rxAlive = true) {i : Actor} (hu : Useful c t w i) :
    ∃ w', Acts c kc ks process i w w' := by
  obtain ⟨_, _, wayS, wayC⟩ := pair_inv (link_pair ht.link)
  simp only [linkOf, side] at wayS wayC
  have rxS : w.server.io.rxAlive = true := by
    cases e : w.server.io.rxAlive with
    | true => rfl
    | false => obtain ⟨r, h3⟩ := (mainInv ht.sess).gone (.inl e); exact absurd h3 (ht.goes r)
  have txS : w.server.io.txAlive = true := by
    cases e : w.server.io.txAlive with
    | true => rfl
    | false => obtain ⟨r, h3⟩ := (mainInv ht.sess).gone (.inr e); exact absurd h3 (ht.goes r)
  have doC : ∀ {act io}, Move kc ks w.client (side w.server) (.act act) { w.client with io } →
      (io.out = w.client.io.out ∨ io.out.length ≤ w.server.io.arrived.length + c.toRight) →
      (io.arrived = w.client.io.arrived ∨ Asks w.client.io) →
      Flow.Step c kc ks process w (.client (.act act)) { w with client := { w.client with io } } :=
    fun h2 h3 h4 => ⟨.client h2, ⟨h3, .inl rfl, h4, .inl rfl⟩⟩
  have doS : ∀ {a q}, Session.Step ks process w.server a q →
      (a = .peer ∨ a = .writeFails →
        ∃ act, kindOf act = some a ∧ Link.Move ks kc (side w.server) w.client (.act act) (side q)) →
      (q.io.out = w.server.io.out ∨ q.io.out.length ≤ w.client.io.arrived.length + c.toLeft) →
      (q.io.arrived = w.server.io.arrived ∨ Asks w.server.io) →
      Flow.Step c kc ks process w (.server a) { w with server := q } :=
    fun h1 h3 h4 h5 => ⟨.server h1 h3, ⟨.inl rfl, h4, .inl rfl, h5⟩⟩
  cases i with
  | clientReader =>
    obtain ⟨h1, ⟨r, h2⟩, _⟩ := hu
    exact ⟨_, doC (.own hg (.read _ r h1 h2) (by simp) (by simp) (by simp))
      (by cases r <;> exact .inl rfl) (by cases r <;> exact .inl rfl)⟩
  | clientWriter =>
    rcases hu with ⟨b, r, h1, h2, _⟩ | ⟨h1, _⟩
    · exact ⟨_, _, .inr ⟨[b], rfl⟩, doC (.own hg (.write _ [b] r h1 (by simp)) (by simp) (by simp) (by simp))
        (.inr (by simpa only [List.length_append, List.length_singleton] using h2)) (.inl rfl)⟩
    · exact ⟨_, _, .inl rfl, doC (.own hg (.written _ h1) (by simp) (by simp) (by simp)) (.inl rfl) (.inl rfl)⟩
  | clientInput =>
    obtain ⟨h1, h2, _⟩ := hu
    obtain ⟨x, hx⟩ := wayC
    have hne : x ≠ [] := by rintro rfl; rw [← hx, List.append_nil] at h2; omega
    exact ⟨_, _, doC (.arrive hg hne (by simp only [side]; rw [hx]; exact List.prefix_refl _) (.arrive _ x ht.inC))
      (.inl rfl) (.inr h1)⟩
  | clientReceives =>
    obtain ⟨⟨m, h1⟩, _⟩ := hu
    exact ⟨_, m, doC (.own hg (.deliver _ m h1 hr) (by simp) (by simp) (by simp)) (.inl rfl) (.inl rfl)⟩
  | serverReader =>
    obtain ⟨h1, ⟨r, h2⟩, _⟩ := hu
    exact ⟨_, doS (.io ht.alive (.read _ r h1 h2) rfl) (by simp) (by cases r <;> exact .inl rfl)
      (by cases r <;> exact .inl rfl), _, _, rfl, .read _ r h1 h2, rfl⟩
  | serverWriter =>
    rcases hu with ⟨b, r, h1, h2, _⟩ | ⟨h1, _⟩
    · exact ⟨_, doS (.io ht.alive (.write _ [b] r h1 (by simp)) rfl) (by simp)
        (.inr (by simpa only [List.length_append, List.length_singleton] using h2)) (.inl rfl),
        _, _, .inr ⟨[b], rfl⟩, .write _ [b] r h1 (by simp), rfl⟩
    · exact ⟨_, doS (.io ht.alive (.written _ h1) rfl) (by simp) (.inl rfl) (.inl rfl),
        _, _, .inl rfl, .written _ h1, rfl⟩
  | serverInput =>
    obtain ⟨h1, h2, _⟩ := hu
    obtain ⟨x, hx⟩ := wayS
    have hne : x ≠ [] := by rintro rfl; rw [← hx, List.append_nil] at h2; omega
    have hst := Transport.Step.arrive (k := ks) w.server.io x ht.inS
    exact ⟨_, doS (.io ht.alive hst rfl) (fun _ => ⟨_, rfl,
      .arrive (by simp [side, ht.alive]) hne (by simp only [side]; rw [hx]; exact List.prefix_refl _) hst⟩)
      (.inl rfl) (.inr h1), _, _, ⟨x, hne, rfl⟩, hst, rfl⟩
  | serverMain =>
    rcases hu with ⟨h1, ⟨m, h2⟩, _⟩ | ⟨⟨m, h1⟩, h2, _⟩
    · exact ⟨_, doS (.recv ht.alive h1 (.deliver _ m h2 rxS)) (by simp) (.inl rfl) (.inl rfl)⟩
    · exact ⟨_, doS (.send ht.alive h1 (.accept _ m h2 txS)) (by simp) (.inl rfl) (.inl rfl)⟩

/-! ### Sooner or later -/

theorem run_steps {s : Nat → World} (hr : Run c kc ks process s) (n : Nat) :
    ∃ as, Flow.Steps c kc ks process {} as (s n) := by
  induction n with
  | zero => exact ⟨[], by rw [hr.start]; exact .nil _⟩
  | succ n ih =>
    obtain ⟨as, ih⟩ := ih
    rcases hr.next n with h | ⟨a, h⟩
    · exact ⟨as, by rw [h]; exact ih⟩
    · exact ⟨_, .snoc ih h⟩

theorem run_talking {s : Nat → World} (hr : Run c kc ks process s) (hk : ∀ n, Spec.GoesOn process (s n)) (n : Nat) :
    ∃ bs, Talking kc ks process bs (s n) := by
  obtain ⟨as, h⟩ := run_steps hr n
  obtain ⟨_, _, _, _, _, _, hp, hs⟩ := hk n
  exact talking hp (flow_steps h) hs

/-- As long as somebody is useful something comes of it. -/
theorem sooner_or_later {s : Nat → World} (hr : Run c kc ks process s) (hf : Scheduled c kc ks process s)
    (hk : ∀ n, Spec.GoesOn process (s n)) (t : Marks) {P : World → Prop} {n : Nat}
    (h : ∀ m, n ≤ m → ¬ P (s m) → ∃ i, Useful c t (s m) i) : ∃ m, n ≤ m ∧ P (s m) := by
  have le : ∀ m, allLeft t (s (m + 1)) ≤ allLeft t (s m) := by
    intro m
    rcases hr.next m with h | ⟨a, h⟩
    · rw [h]; exact Nat.le_refl _
    · exact allLeft_step t h.step
  have le' : ∀ m d, allLeft t (s (m + d)) ≤ allLeft t (s m) := by
    intro m d
    induction d with
    | zero => exact Nat.le_refl _
    | succ d ih => exact Nat.le_trans (le (m + d)) ih
  suffices H : ∀ b n, (∀ m, n ≤ m → ¬ P (s m) → ∃ i, Useful c t (s m) i) → allLeft t (s n) < b →
      ∃ m, n ≤ m ∧ P (s m) from H _ n h (Nat.lt_succ_self _)
  intro b
  induction b with
  | zero => intro n _ hb; omega
  | succ b ih =>
    intro n h hb
    by_cases hP : P (s n)
    · exact ⟨n, Nat.le_refl _, hP⟩
    obtain ⟨i, hi⟩ := h n (Nat.le_refl _) hP
    -- it acts
    obtain ⟨m, hm, hm'⟩ : ∃ m, n ≤ m ∧ allLeft t (s (m + 1)) < allLeft t (s m) := by
      refine Classical.byContradiction fun hno => ?_
      have hne : ∀ m, n ≤ m → ¬ allLeft t (s (m + 1)) < allLeft t (s m) := fun m h1 h2 => hno ⟨m, h1, h2⟩
      have stays : ∀ d, Useful c t (s (n + d)) i := by
        intro d
        induction d with
        | zero => exact hi
        | succ d ihd =>
          obtain ⟨bs, ht⟩ := run_talking hr hk (n + d)
          obtain ⟨bs', ht'⟩ := run_talking hr hk (n + d + 1)
          obtain ⟨_, _, _, _, _, _, _, hs⟩ := hk (n + d + 1)
          rcases hr.next (n + d) with h | ⟨a, h⟩
          · show Useful c t (s (n + d + 1)) i
            rw [h]; exact ihd
          · exact useful_keeps h ht ht' hs.gone ihd (fun ha => hne (n + d) (by omega) (useful_less ihd ha ht))
      have stays' : ∀ m, n ≤ m → Useful c t (s m) i := by
        intro m hm
        obtain ⟨d, rfl⟩ := Nat.exists_eq_add_of_le hm
        exact stays d
      obtain ⟨m, h1, h2⟩ := hf i n (fun m hm => by
        obtain ⟨bs, ht⟩ := run_talking hr hk m
        obtain ⟨_, _, _, _, _, _, _, hs⟩ := hk m
        exact useful_can ht hs.gone hs.rx (stays' m hm))
      obtain ⟨bs, ht⟩ := run_talking hr hk m
      exact hne m h1 (useful_less (stays' m h1) h2 ht)
    obtain ⟨d, rfl⟩ := Nat.exists_eq_add_of_le hm
    have := le' n d
    obtain ⟨m', h1, h2⟩ := ih (n + d + 1) (fun m h1 h2 => h m (by omega) h2) (by omega)
    exact ⟨m', by omega, h2⟩

/-! ### Who is useful -/

/-- How far it is to go for the messages `ms`. -/
def marksOf (process : InitializeBuild → Option Value) (ms : List Message) : Marks where
  toServer := (ms.flatMap Frame.write).length
  heard := ms.length
  toClient := ((Spec.answers process (ms.map Spec.heard)).flatMap Frame.write).length
  answers := (Spec.answers process (ms.map Spec.heard)).length

omit [Dbg] in
/-- A reader thread that is not at its end can do something useful, or asks for bytes. -/
theorem reader_useful {n : Nat} {s : State} (h : s.reader.ended = false) (hd : s.delivered.length ≤ n) :
    CanHand n s ∨ CanRead n s ∨ Asks s := by
  cases e : s.reader with
  | sending m => exact .inl ⟨⟨m, e⟩, hd⟩
  | reading =>
    by_cases hs : ∃ r, Settled s r
    · exact .inr (.inl ⟨e, hs, hd⟩)
    · exact .inr (.inr ⟨e, fun r hr => hs ⟨r, hr⟩⟩)
  | _ => simp [e, Reader.ended] at h

omit [Dbg] in
theorem asks_stuck {k : Kind} {s : State} (h : Asks s) : ¬ ∃ s', Transport.Step k s .read s' := by
  rintro ⟨s', hs⟩
  cases hs with
  | read r _ hr => exact h.2 r hr

omit [Dbg] in
theorem broken_writer {k : Kind} {s : State} (h : Reachable k s) (hw : s.writer = .failed ∨ s.writer = .panicked) :
    s.writer = writeError k := by
  have := writeInv h
  rcases hw with hw | hw <;> simp only [WriteInv, hw] at this
  · rw [hw, this.1]; rfl
  · rw [hw, this.1]; rfl

/-- What is known of a client and the server at work, the client having sent at least `ms`. -/
structure Way (kc ks : Kind) (process : InitializeBuild → Option Value) (ms : List Message) (w : World) : Prop where
  pair : PairReachable kc ks ⟨w.client.io, w.server.io⟩
  sent : ms <+: w.client.io.accepted
  okC : ∀ m ∈ w.client.io.accepted, Spec.Sayable m
  okS : ∀ m ∈ w.server.io.accepted, Spec.Sayable m
  heard : w.server.io.delivered <+: w.client.io.accepted.map Spec.heard
  owed : w.server.io.accepted <+: Spec.answers process w.server.io.delivered
  got : w.client.io.delivered <+: w.server.io.accepted.map Spec.heard
  readC : w.client.io.reader.ended = false
  readS : w.server.io.reader.ended = false
  main : (w.server.app.receives = true ∧ w.server.io.accepted = Spec.answers process w.server.io.delivered) ∨
    ((∃ m, toSend w.server.app = some m) ∧ Spec.answers process w.server.io.delivered ≠ w.server.io.accepted)
  writeS : w.server.io.writer = .idle ∨ ∃ r, w.server.io.writer = .writing r
  writeC : w.client.io.writer = .idle ∨ w.client.io.writer = .done ∨ ∃ r, w.client.io.writer = .writing r

theorem way {ms : List Message} {w : World} {bs : List Session.Act} (ht : Talking kc ks process bs w)
    (hp : Spec.Plan process said early id ip v pre) (hs : Spec.Says said w) (hm : ms <+: w.client.io.accepted) :
    Way kc ks process ms w := by
  have hpair := link_pair ht.link
  obtain ⟨p1, p2, _⟩ := pair_inv hpair
  obtain ⟨okA, _, hacc⟩ := talking_sent hp ht hs
  have okS : ∀ m ∈ w.server.io.accepted, Spec.Sayable m := fun m hm => (plan_answers hp m (hacc.subset hm)).1
  refine ⟨hpair, hm, okA, okS, C56_heard hpair okA, ?_, C56_heard (pair_swap hpair) okS, ht.readC, ht.readS, ?_, ?_, ?_⟩
  · rw [answers_eq]; exact (mainInv ht.sess).sent
  · have hat := (mainInv ht.sess).at' (no_fail ht.sess ht.wrote)
    rw [← answers_eq] at hat
    cases hat with
    | rest h1 h2 =>
      refine .inl ⟨?_, h2⟩
      rcases app_cases w.server.app with h3 | ⟨m, h3⟩ | ⟨r, h3⟩
      · exact h3
      · rw [h1, feed_toSend rfl] at h3; cases h3
      · exact absurd h3 (ht.goes r)
    | sending h1 _ h2 => exact .inr ⟨⟨_, h1⟩, by rw [h2]; simp⟩
    | closed _ _ h => rw [ht.readS] at h; cases h
    | late _ h => exact absurd h (ht.goes _)
  · cases e : w.server.io.writer with
    | idle => exact .inl rfl
    | writing r => exact .inr ⟨r, rfl⟩
    | done =>
      have := writeInv p2
      simp only [WriteInv, linkOf, side, e] at this
      obtain ⟨r, h3⟩ := (mainInv ht.sess).gone (.inr this.2); exact absurd h3 (ht.goes r)
    | failed => exact absurd (broken_writer p2 (.inl e)) (no_fail ht.sess ht.wrote)
    | panicked => exact absurd (broken_writer p2 (.inr e)) (no_fail ht.sess ht.wrote)
  · cases e : w.client.io.writer with
    | idle => exact .inl rfl
    | done => exact .inr (.inl rfl)
    | writing r => exact .inr (.inr ⟨r, rfl⟩)
    | failed => exact absurd e ht.writeC.1
    | panicked => exact absurd e ht.writeC.2

omit [Dbg] [FloatText] [LawfulExt] in
theorem take_short {α : Type} {a b l : List α} (ha : a <+: l) (hb : b <+: l) {n : Nat} (hn : n ≤ b.length) :
    a.take n <+: b := by
  have h : (a.take n).length ≤ b.length := by rw [List.length_take]; omega
  exact List.prefix_of_prefix_length_le ((List.take_prefix _ _).trans ha) hb h

omit [Dbg] in
theorem all_out {k : Kind} {s : State} (h : Reachable k s)
    (hw : s.writer = .idle ∨ s.writer = .done ∨ s.writer = .writing []) : s.out = s.accepted.flatMap Frame.write := by
  rcases hw with hw | hw | hw
  · exact written_all h (.inl hw)
  · exact written_all h (.inr hw)
  · have := writeInv h
    simp only [WriteInv, hw, List.append_nil] at this
    obtain ⟨ms, m, sent, h1, h2, h3⟩ := this
    rw [h3, h1, List.flatMap_append, ← h2]
    simp

/-- What the server has to say to what the client has said. -/
theorem Way.answers {ms : List Message} {w : World} (h : Way kc ks process ms w) :
    w.server.io.accepted <+: Spec.answers process (w.client.io.accepted.map Spec.heard) ∧
    Spec.answers process (ms.map Spec.heard) <+: Spec.answers process (w.client.io.accepted.map Spec.heard) := by
  refine ⟨h.owed.trans (answers_prefix h.heard), answers_prefix ?_⟩
  obtain ⟨t, ht⟩ := h.sent
  rw [← ht, List.map_append]
  exact List.prefix_append _ _

/-- The server, when it has received no more than `ms`: somebody is useful, or it has got all there is. -/
theorem server_useful (hc' : 1 ≤ c.toLeft) {ms : List Message} {w : World} (h : Way kc ks process ms w)
    (hd : w.server.io.delivered.length ≤ ms.length)
    (short : Asks w.server.io → w.server.io.arrived.length ≤ (marksOf process ms).toServer) :
    (∃ i, Useful c (marksOf process ms) w i) ∨ (Asks w.server.io ∧ w.server.io.arrived = w.client.io.out) := by
  obtain ⟨p1, p2, p3, p4⟩ := pair_inv h.pair
  simp only at p1 p2 p3 p4
  have few : w.server.io.delivered <+: ms.map Spec.heard := by
    obtain ⟨t, ht⟩ := h.sent
    refine List.prefix_of_prefix_length_le h.heard (l₂ := ms.map Spec.heard) ?_ (by rw [List.length_map]; omega)
    rw [← ht, List.map_append]
    exact List.prefix_append _ _
  have fewer := h.owed.trans (answers_prefix few)
  have outS := ((C53_output p2).1.trans (flatMap_prefix fewer)).length_le
  have gotten := h.got.length_le
  rw [List.length_map] at gotten
  have fl := fewer.length_le
  -- the client takes what the server writes
  have drain : w.client.io.arrived.length < w.server.io.out.length → ∃ i, Useful c (marksOf process ms) w i := by
    intro hl
    rcases reader_useful (n := (marksOf process ms).answers) h.readC (by simp only [marksOf]; omega) with h1 | h1 | h1
    · exact ⟨.clientReceives, h1⟩
    · exact ⟨.clientReader, h1⟩
    · exact ⟨.clientInput, h1, hl, by simp only [marksOf] at outS ⊢; omega⟩
  rcases reader_useful (n := (marksOf process ms).heard) h.readS (by simp only [marksOf]; omega) with h1 | h1 | h1
  · left
    rcases h.main with ⟨h2, _⟩ | ⟨h2, _⟩
    · exact ⟨.serverMain, .inl ⟨h2, h1⟩⟩
    · rcases h.writeS with h3 | ⟨r, h3⟩
      · exact ⟨.serverMain, .inr ⟨h2, h3, fl⟩⟩
      · cases r with
        | nil => exact ⟨.serverWriter, .inr ⟨h3, by simp only [marksOf]; omega⟩⟩
        | cons b r =>
          by_cases hroom : w.server.io.out.length + 1 ≤ w.client.io.arrived.length + c.toLeft
          · exact ⟨.serverWriter, .inl ⟨b, r, h3, hroom, outS⟩⟩
          · exact drain (by omega)
  · exact .inl ⟨.serverReader, h1⟩
  · have := p3.length_le
    by_cases hl : w.server.io.arrived.length < w.client.io.out.length
    · exact .inl ⟨.serverInput, h1, hl, short h1⟩
    · exact .inr ⟨h1, List.IsPrefix.eq_of_length_le p3 (by omega)⟩

/-- When not all of `ms` has come through. -/
theorem useful_heard (hc : 1 ≤ c.toRight) (hc' : 1 ≤ c.toLeft) {ms : List Message} {w : World} (h : Way kc ks process ms w)
    (hd : w.server.io.delivered.length < ms.length) : ∃ i, Useful c (marksOf process ms) w i := by
  obtain ⟨p1, _, p3, _⟩ := pair_inv h.pair
  simp only at p1 p3
  have short : Asks w.server.io → w.server.io.arrived.length ≤ (marksOf process ms).toServer := by
    intro h1
    have short := asks_short h.pair h.okC h1
    simp only at short
    exact Nat.le_trans short (flatMap_prefix (take_short (List.prefix_refl _) h.sent (by omega))).length_le
  rcases server_useful hc' h (by omega) short with hu | ⟨h1, same⟩
  · exact hu
  have := short h1
  have all : w.client.io.out = w.client.io.accepted.flatMap Frame.write → False := by
    intro ho
    have := congrArg List.length (C56_heard_all h.pair h.okC (same.trans ho) h1.1 (asks_stuck h1))
    have hl := h.sent.length_le
    simp only [List.length_map] at this
    omega
  rcases h.writeC with h2 | h2 | ⟨r, h2⟩
  · exact (all (all_out p1 (.inl h2))).elim
  · exact (all (all_out p1 (.inr (.inl h2)))).elim
  · cases r with
    | nil => exact (all (all_out p1 (.inr (.inr h2)))).elim
    | cons b r =>
      rw [same] at this
      exact ⟨.clientWriter, .inl ⟨b, r, h2, by rw [same]; omega, this⟩⟩

/-- The client, when all of `ms` has come through and not all answers have. -/
theorem useful_answered (hc' : 1 ≤ c.toLeft) {ms : List Message} {w : World} (h : Way kc ks process ms w)
    (hh : ms.length ≤ w.server.io.delivered.length)
    (hd : w.client.io.delivered.length < (Spec.answers process (ms.map Spec.heard)).length) :
    ∃ i, Useful c (marksOf process ms) w i := by
  obtain ⟨p1, p2, p3, p4⟩ := pair_inv h.pair
  simp only at p1 p2 p3 p4
  have many : ms.map Spec.heard <+: w.server.io.delivered := by
    obtain ⟨t, ht⟩ := h.sent
    refine List.prefix_of_prefix_length_le ?_ h.heard (by rw [List.length_map]; exact hh)
    rw [← ht, List.map_append]
    exact List.prefix_append _ _
  have more := (answers_prefix (process := process) many)
  rcases reader_useful (n := (marksOf process ms).answers) h.readC (by simp only [marksOf]; omega) with h1 | h1 | h1
  · exact ⟨.clientReceives, h1⟩
  · exact ⟨.clientReader, h1⟩
  · have short := asks_short (pair_swap h.pair) h.okS h1
    simp only at short
    have short : w.client.io.arrived.length ≤ (marksOf process ms).toClient :=
      Nat.le_trans short (flatMap_prefix (take_short h.answers.1 h.answers.2 (by omega))).length_le
    have := p4.length_le
    by_cases hl : w.client.io.arrived.length < w.server.io.out.length
    · exact ⟨.clientInput, h1, hl, short⟩
    · have same : w.client.io.arrived = w.server.io.out := List.IsPrefix.eq_of_length_le p4 (by omega)
      have all : w.server.io.out = w.server.io.accepted.flatMap Frame.write →
          w.client.io.delivered.length = w.server.io.accepted.length := by
        intro ho
        have := congrArg List.length (C56_heard_all (pair_swap h.pair) h.okS (same.trans ho) h1.1 (asks_stuck h1))
        simpa only [List.length_map] using this
      rcases h.writeS with h2 | ⟨r, h2⟩
      · have e := all (all_out p2 (.inl h2))
        rcases h.main with ⟨_, h3⟩ | ⟨h3, _⟩
        · have := more.length_le
          rw [← h3] at this
          omega
        · exact ⟨.serverMain, .inr ⟨h3, h2, by simp only [marksOf]; omega⟩⟩
      · cases r with
        | nil =>
          have e := all (all_out p2 (.inr (.inr h2)))
          exact ⟨.serverWriter, .inr ⟨h2, by simp only [marksOf]; omega⟩⟩
        | cons b r => exact ⟨.serverWriter, .inl ⟨b, r, h2, by omega, by omega⟩⟩

/-- The writer thread of the client, while it writes the last message of `ms`. -/
theorem useful_sent (hc : 1 ≤ c.toRight) (hc' : 1 ≤ c.toLeft) {ms : List Message} {w : World} (h : Way kc ks process ms w)
    (hms : w.client.io.accepted = ms) {r : Bytes} (hw : w.client.io.writer = .writing r) :
    ∃ i, Useful c (marksOf process ms) w i := by
  obtain ⟨p1, p2, p3, p4⟩ := pair_inv h.pair
  simp only at p1 p2 p3 p4
  have outC := (C53_output p1).1.length_le
  rw [hms] at outC
  have le := h.heard.length_le
  rw [List.length_map, hms] at le
  cases r with
  | nil => exact ⟨.clientWriter, .inr ⟨hw, by rw [hms]; simp only [marksOf]; omega⟩⟩
  | cons b r =>
    by_cases hroom : w.client.io.out.length + 1 ≤ w.server.io.arrived.length + c.toRight
    · exact ⟨.clientWriter, .inl ⟨b, r, hw, hroom, outC⟩⟩
    · rcases server_useful hc' h le (fun _ => Nat.le_trans p3.length_le outC) with hu | ⟨_, same⟩
      · exact hu
      · rw [same] at hroom; omega

/-! ### The property -/

theorem run_grows {s : Nat → World} (hr : Run c kc ks process s) {n m : Nat} (h : n ≤ m) :
    (s n).client.io.accepted <+: (s m).client.io.accepted ∧ (s n).client.io.delivered <+: (s m).client.io.delivered ∧
    (s n).server.io.delivered <+: (s m).server.io.delivered := by
  obtain ⟨d, rfl⟩ := Nat.exists_eq_add_of_le h
  clear h
  induction d with
  | zero => exact ⟨List.prefix_refl _, List.prefix_refl _, List.prefix_refl _⟩
  | succ d ih =>
    obtain ⟨h1, h2, h3⟩ := ih
    rcases hr.next (n + d) with h | ⟨a, h⟩
    · show _ <+: (s (n + d + 1)).client.io.accepted ∧ _ <+: (s (n + d + 1)).client.io.delivered ∧
        _ <+: (s (n + d + 1)).server.io.delivered
      rw [h]; exact ⟨h1, h2, h3⟩
    · have key : ∀ {k : Kind} {x x' : State} {act : Transport.Act}, Transport.Step k x act x' →
          x.accepted <+: x'.accepted ∧ x.delivered <+: x'.delivered := by
        intro k x x' act h
        cases h with
        | read r => cases r <;> exact ⟨List.prefix_refl _, List.prefix_refl _⟩
        | accept => exact ⟨List.prefix_append _ _, List.prefix_refl _⟩
        | deliver => exact ⟨List.prefix_refl _, List.prefix_append _ _⟩
        | _ => exact ⟨List.prefix_refl _, List.prefix_refl _⟩
      rcases world_io h.step with ⟨_, e, h⟩ | ⟨_, e, h⟩
      · refine ⟨h1.trans ?_, h2.trans ?_, h3.trans (by rw [← Nat.add_assoc, e]; exact List.prefix_refl _)⟩
        · rcases h with ⟨_, _, h⟩ | h
          · exact (key h).1
          · rw [← Nat.add_assoc, h]; exact List.prefix_refl _
        · rcases h with ⟨_, _, h⟩ | h
          · exact (key h).2
          · rw [← Nat.add_assoc, h]; exact List.prefix_refl _
      · refine ⟨h1.trans (by rw [← Nat.add_assoc, e]; exact List.prefix_refl _),
          h2.trans (by rw [← Nat.add_assoc, e]; exact List.prefix_refl _), h3.trans ?_⟩
        rcases h with ⟨_, h⟩ | h
        · exact (key h).2
        · rw [← Nat.add_assoc, h]; exact List.prefix_refl _

theorem run_way {s : Nat → World} (hr : Run c kc ks process s) (hk : ∀ n, Spec.GoesOn process (s n)) {n m : Nat}
    (h : n ≤ m) : Way kc ks process (s n).client.io.accepted (s m) := by
  obtain ⟨bs, ht⟩ := run_talking hr hk m
  obtain ⟨_, _, _, _, _, _, hp, hs⟩ := hk m
  exact way ht hp hs (run_grows hr h).1

/-- C123: the server receives every message, though the client may never stop sending. -/
theorem C123_heard (hc : 1 ≤ c.toRight) (hc' : 1 ≤ c.toLeft) {s : Nat → World} (hr : Run c kc ks process s)
    (hf : Scheduled c kc ks process s) (hk : ∀ n, Spec.GoesOn process (s n)) (n : Nat) :
    ∃ m, n ≤ m ∧ (s n).client.io.accepted.map Spec.heard <+: (s m).server.io.delivered := by
  obtain ⟨m, hm, h⟩ := sooner_or_later hr hf hk (marksOf process (s n).client.io.accepted) (n := n)
    (P := fun w => (s n).client.io.accepted.length ≤ w.server.io.delivered.length)
    (fun m hm hP => useful_heard hc hc' (run_way hr hk hm) (by omega))
  refine ⟨m, hm, ?_⟩
  have hw := run_way hr hk hm
  obtain ⟨t, ht⟩ := hw.sent
  refine List.prefix_of_prefix_length_le ?_ hw.heard (by rw [List.length_map]; exact h)
  rw [← ht, List.map_append]
  exact List.prefix_append _ _

/-- C123: and answers it. -/
theorem C123_answered (hc : 1 ≤ c.toRight) (hc' : 1 ≤ c.toLeft) {s : Nat → World} (hr : Run c kc ks process s)
    (hf : Scheduled c kc ks process s) (hk : ∀ n, Spec.GoesOn process (s n)) (n : Nat) :
    ∃ m, n ≤ m ∧ (Spec.answers process ((s n).client.io.accepted.map Spec.heard)).map Message.norm <+:
      (s m).client.io.delivered := by
  obtain ⟨m0, h0, hh⟩ := C123_heard hc hc' hr hf hk n
  have hh := hh.length_le
  rw [List.length_map] at hh
  obtain ⟨m, hm, h⟩ := sooner_or_later hr hf hk (marksOf process (s n).client.io.accepted) (n := m0)
    (P := fun w => (Spec.answers process ((s n).client.io.accepted.map Spec.heard)).length ≤ w.client.io.delivered.length)
    (fun m hm hP => useful_answered hc' (run_way hr hk (by omega))
      (Nat.le_trans hh (run_grows hr hm).2.2.length_le) (by omega))
  refine ⟨m, by omega, ?_⟩
  have hw := run_way (n := n) hr hk (show n ≤ m by omega)
  have hgot : (s m).client.io.delivered <+:
      (Spec.answers process ((s m).client.io.accepted.map Spec.heard)).map Spec.heard := by
    refine hw.got.trans ?_
    obtain ⟨t, ht⟩ := hw.answers.1
    rw [← ht, List.map_append]
    exact List.prefix_append _ _
  have e : (Spec.answers process ((s n).client.io.accepted.map Spec.heard)).map Message.norm =
      (Spec.answers process ((s n).client.io.accepted.map Spec.heard)).map Spec.heard := by
    refine List.map_congr_left (fun m hm => (heard_wireOk ?_).symm)
    rw [answers_eq] at hm
    obtain ⟨r, rfl⟩ := feed_responses _ _ _ hm
    trivial
  rw [e]
  refine List.prefix_of_prefix_length_le ?_ hgot (by rw [List.length_map]; exact h)
  obtain ⟨t, ht⟩ := hw.answers.2
  rw [← ht, List.map_append]
  exact List.prefix_append _ _

/-- C123: and the writer thread gets ready to take the next message, again and again. -/
theorem C123_sent (hc : 1 ≤ c.toRight) (hc' : 1 ≤ c.toLeft) {s : Nat → World} (hr : Run c kc ks process s)
    (hf : Scheduled c kc ks process s) (hk : ∀ n, Spec.GoesOn process (s n)) (n : Nat)
    (htx : ∀ m, (s m).client.io.txAlive = true) : ∃ m, n ≤ m ∧ (s m).client.io.writer = .idle := by
  refine Classical.byContradiction fun hno => ?_
  have busy : ∀ m, n ≤ m → ∃ r, (s m).client.io.writer = .writing r := by
    intro m hm
    have hw := run_way hr hk hm
    rcases hw.writeC with h | h | h
    · exact absurd ⟨m, hm, h⟩ hno
    · have := writeInv (pair_inv hw.pair).1
      simp only [WriteInv, h] at this
      rw [htx] at this; cases this.2
    · exact h
  have same : ∀ d, (s (n + d)).client.io.accepted = (s n).client.io.accepted := by
    intro d
    induction d with
    | zero => rfl
    | succ d ih =>
      obtain ⟨r, hb⟩ := busy (n + d) (by omega)
      rw [← ih, ← Nat.add_assoc]
      rcases hr.next (n + d) with h | ⟨a, h⟩
      · rw [h]
      · rcases world_io h.step with ⟨_, _, h⟩ | ⟨_, e, _⟩
        · rcases h with ⟨_, _, h⟩ | h
          · generalize (s (n + d + 1)).client.io = q at h
            cases h with
            | accept m i1 => rw [hb] at i1; cases i1
            | read r => cases r <;> rfl
            | _ => rfl
          · rw [h]
        · rw [e]
  obtain ⟨m, hm, h⟩ := sooner_or_later hr hf hk (marksOf process (s n).client.io.accepted) (n := n) (P := fun _ => False)
    (fun m hm _ => by
      obtain ⟨d, rfl⟩ := Nat.exists_eq_add_of_le hm
      obtain ⟨r, hb⟩ := busy (n + d) hm
      exact useful_sent hc hc' (run_way hr hk hm) (same d) hb)
  exact h

/-! ### There are such runs -/

omit [Dbg] [FloatText] [LawfulExt] in
/-- Finite paths, one after the other, for ever. -/
theorem chain {α : Type} {R : α → α → Prop} {Q : Nat → α → Prop} {x0 : α} (h0 : Q 0 x0)
    (hs : ∀ k x, Q k x → ∃ (p : Nat → α) (l : Nat), 0 < l ∧ p 0 = x ∧ Q (k + 1) (p l) ∧ ∀ i, i < l → R (p i) (p (i + 1))) :
    ∃ s : Nat → α, s 0 = x0 ∧ (∀ n, R (s n) (s (n + 1))) ∧ ∀ k, ∃ n, k ≤ n ∧ Q k (s n) := by
  let next : ∀ k, { x : α // Q k x } → { x : α // Q (k + 1) x } := fun k x =>
    ⟨_, (Classical.choose_spec (Classical.choose_spec (hs k x.1 x.2))).2.2.1⟩
  let rounds : ∀ k, { x : α // Q k x } := fun k => Nat.rec ⟨x0, h0⟩ next k
  let p : Nat → Nat → α := fun k => Classical.choose (hs k (rounds k).1 (rounds k).2)
  let l : Nat → Nat := fun k => Classical.choose (Classical.choose_spec (hs k (rounds k).1 (rounds k).2))
  have spec : ∀ k, 0 < l k ∧ p k 0 = (rounds k).1 ∧ Q (k + 1) (p k (l k)) ∧ ∀ i, i < l k → R (p k i) (p k (i + 1)) :=
    fun k => Classical.choose_spec (Classical.choose_spec (hs k (rounds k).1 (rounds k).2))
  have link : ∀ k, (rounds (k + 1)).1 = p k (l k) := fun k => rfl
  let go : Nat × Nat → Nat × Nat := fun ki => if ki.2 + 1 < l ki.1 then (ki.1, ki.2 + 1) else (ki.1 + 1, 0)
  let at' : Nat → Nat × Nat := fun n => Nat.rec (0, 0) (fun _ ki => go ki) n
  have at_succ : ∀ n, at' (n + 1) = go (at' n) := fun n => rfl
  have inside : ∀ n, (at' n).2 < l (at' n).1 := by
    intro n
    induction n with
    | zero => exact (spec 0).1
    | succ n ih =>
      rw [at_succ]
      by_cases h : (at' n).2 + 1 < l (at' n).1
      · simp only [go, h, if_true]
      · simp only [go, h, if_false]; exact (spec _).1
  have hit : ∀ k, ∃ n, k ≤ n ∧ at' n = (k, 0) := by
    intro k
    induction k with
    | zero => exact ⟨0, Nat.le_refl _, rfl⟩
    | succ k ih =>
      obtain ⟨n, hn, hk⟩ := ih
      have step : ∀ d, d < l k → at' (n + d) = (k, d) := by
        intro d hd
        induction d with
        | zero => exact hk
        | succ d ihd =>
          rw [← Nat.add_assoc, at_succ, ihd (by omega)]
          simp only [go, hd, if_true]
      have hl := (spec k).1
      refine ⟨n + (l k - 1) + 1, by omega, ?_⟩
      rw [at_succ, step (l k - 1) (by omega)]
      simp only [go]
      rw [if_neg (by omega)]
  refine ⟨fun n => p (at' n).1 (at' n).2, (spec 0).2.1, ?_, ?_⟩
  · intro n
    have hR := (spec (at' n).1).2.2.2 _ (inside n)
    simp only [at_succ]
    by_cases h : (at' n).2 + 1 < l (at' n).1
    · simp only [go, h, if_true]; exact hR
    · have e : (at' n).2 + 1 = l (at' n).1 := by have := inside n; omega
      simp only [go, h, if_false, (spec _).2.1, link]
      rw [← e]; exact hR
  · intro k
    obtain ⟨n, hn, hk⟩ := hit k
    refine ⟨n, hn, ?_⟩
    simp only [hk, (spec k).2.1]
    exact (rounds k).2

theorem steps_path {w u : World} {as : List EndToEnd.Ev} (h : Flow.Steps c kc ks process w as u) :
    ∃ p : Nat → World, p 0 = w ∧ p as.length = u ∧
      ∀ i, i < as.length → ∃ a, Flow.Step c kc ks process (p i) a (p (i + 1)) := by
  induction h with
  | nil => exact ⟨fun _ => w, rfl, rfl, by simp⟩
  | @snoc as v a u _ hs ih =>
    obtain ⟨p, h1, h2, h3⟩ := ih
    refine ⟨fun i => if i ≤ as.length then p i else u, by simpa using h1, by simp only [List.length_append, List.length_singleton]; rw [if_neg (by omega)], ?_⟩
    intro i hi
    simp only [List.length_append, List.length_singleton] at hi
    by_cases h : i = as.length
    · subst h
      refine ⟨a, ?_⟩
      simp only [Nat.le_refl, if_true]
      rw [if_neg (by omega), h2]
      exact hs
    · obtain ⟨b, hb⟩ := h3 i (by omega)
      refine ⟨b, ?_⟩
      simpa [show i ≤ as.length by omega, show i + 1 ≤ as.length by omega] using hb

theorem acts_step {i : Actor} {w w' : World} (h : Acts c kc ks process i w w') :
    ∃ a, Flow.Step c kc ks process w a w' ∧ a.free = false := by
  cases i with
  | clientReader => exact ⟨_, h, rfl⟩
  | clientWriter => obtain ⟨act, ha, h⟩ := h; refine ⟨_, h, ?_⟩; rcases ha with rfl | ⟨b, rfl⟩ <;> rfl
  | clientInput => obtain ⟨b, h⟩ := h; exact ⟨_, h, rfl⟩
  | clientReceives => obtain ⟨b, h⟩ := h; exact ⟨_, h, rfl⟩
  | serverReader => exact ⟨_, h.1, rfl⟩
  | serverWriter => exact ⟨_, h.1, rfl⟩
  | serverInput => exact ⟨_, h.1, rfl⟩
  | serverMain => exact ⟨_, h, rfl⟩

theorem tx_before {w w' : World} {a : EndToEnd.Ev} (h : EndToEnd.Step kc ks process w a w')
    (ht : w'.client.io.txAlive = true) : w.client.io.txAlive = true := by
  rcases world_io h with ⟨_, _, h⟩ | ⟨_, e, _⟩
  · rcases h with ⟨_, _, h⟩ | h
    · generalize w'.client.io = q at h ht
      cases h with
      | read r => cases r <;> exact ht
      | dropTx => cases ht
      | _ => exact ht
    · rw [← h]; exact ht
  · rw [← e]; exact ht

/-- C123: for whatever a client has to say, without end, and buffers of any size, there is such a run. -/
theorem C123_exists (hc : 1 ≤ c.toRight) (hc' : 1 ≤ c.toLeft) (kc ks : Kind) (ms : Nat → Message)
    (hms : ∀ n, ∃ said early id ip v pre, Spec.Plan process said early id ip v pre ∧ (List.range n).map ms <+: said) :
    ∃ s, Run c kc ks process s ∧ Scheduled c kc ks process s ∧ (∀ n, Spec.GoesOn process (s n)) ∧
      (∀ n, (s n).client.io.txAlive = true) ∧ ∀ n, ∃ m, (List.range n).map ms <+: (s m).client.io.accepted := by
  let Q : Nat → World → Prop := fun k w => (∃ as, Flow.Steps c kc ks process {} as w) ∧ w.client.gone = false ∧
    w.client.io.rxAlive = true ∧ w.client.io.txAlive = true ∧ w.client.io.accepted = (List.range k).map ms ∧
    (k = 0 → w = {}) ∧ (0 < k → Flow.Quiet c kc ks process w)
  have h0 : Q 0 {} := ⟨⟨[], .nil _⟩, rfl, rfl, rfl, rfl, fun _ => rfl, by omega⟩
  obtain ⟨s, s0, sR, sQ⟩ := chain (R := fun w w' => ∃ a, Flow.Step c kc ks process w a w') h0 (by
    rintro k w ⟨⟨as, hw⟩, hg, hr, ht, ha, hz, hq⟩
    obtain ⟨said, early, id, ip, v, pre, hp, hsaid⟩ := hms k
    obtain ⟨u, hu, hacc⟩ : ∃ u, Flow.Step c kc ks process w (.client (.act (.accept (ms k)))) u ∧
        u.client.io.accepted = w.client.io.accepted ++ [ms k] := by
      by_cases hk : k = 0
      · rw [hz hk]
        exact ⟨_, ⟨.client (.own rfl (.accept _ _ rfl rfl) (by simp) (by simp) (by simp)),
          ⟨.inl rfl, .inl rfl, .inl rfl, .inl rfl⟩⟩, rfl⟩
      · exact C122_takes hc hc' hp hw hg hr ht (by rw [ha]; exact hsaid) (hq (by omega)) (ms k)
    have keep : u.client.gone = false ∧ u.client.io.rxAlive = true ∧ u.client.io.txAlive = true := by
      have hs := hu.step
      cases hs with
      | client hm =>
        cases hm with
        | own i1 i2 => cases i2; exact ⟨i1, hr, ht⟩
    obtain ⟨bs, x, h5, h6, h7⟩ := flow_settles c kc ks process u
    obtain ⟨k1, k2, k3, k4⟩ := flow_keeps h5 h7
    have hpath := flow_append (.snoc (.nil _) hu) h5
    obtain ⟨p, p0, pl, pR⟩ := steps_path hpath
    refine ⟨p, _, ?_, p0, ?_, pR⟩
    · simp
    · rw [pl]
      refine ⟨⟨_, flow_append hw hpath⟩, k1.trans keep.1, k3.trans keep.2.1, k4.trans keep.2.2, ?_, by omega, fun _ => h6⟩
      rw [k2, hacc, ha, List.range_succ, List.map_append]
      rfl)
  have hrun : Run c kc ks process s := ⟨s0, fun n => .inr (sR n)⟩
  -- what holds at the end of a round has held before
  have back : ∀ {said} n d, Spec.Says said (s (n + d)) → (s (n + d)).client.io.txAlive = true →
      Spec.Says said (s n) ∧ (s n).client.io.txAlive = true := by
    intro said n d
    induction d with
    | zero => exact fun h1 h2 => ⟨h1, h2⟩
    | succ d ih =>
      intro h1 h2
      obtain ⟨a, h⟩ := sR (n + d)
      exact ih (says_before h.step h1) (tx_before h.step h2)
  have each : ∀ n, Spec.GoesOn process (s n) ∧ (s n).client.io.txAlive = true := by
    intro n
    obtain ⟨m, hm, _, hg, hr, ht, ha, _, _⟩ := sQ n
    obtain ⟨said, early, id, ip, v, pre, hp, hsaid⟩ := hms n
    obtain ⟨d, rfl⟩ := Nat.exists_eq_add_of_le hm
    obtain ⟨h1, h2⟩ := back n d ⟨hg, hr, by rw [ha]; exact hsaid⟩ ht
    exact ⟨⟨said, early, id, ip, v, pre, hp, h1⟩, h2⟩
  refine ⟨s, hrun, ?_, fun n => (each n).1, fun n => (each n).2, ?_⟩
  · intro i n hen
    obtain ⟨m, hm, _, _, _, _, _, _, hq⟩ := sQ (n + 1)
    obtain ⟨w, hw⟩ := hen m (by omega)
    obtain ⟨a, h1, h2⟩ := acts_step hw
    have := hq (by omega) a w h1
    rw [h2] at this; cases this
  · intro n
    obtain ⟨m, _, _, _, _, _, ha, _⟩ := sQ n
    exact ⟨m, by rw [ha]; exact List.prefix_refl _⟩

end

section
attribute [local instance] Ext.sample FloatText.sample Dbg.sample

/-- The session of C96, and then one of its requests for ever. -/
def endlessSaid (n : Nat) : Message := sampleSaid.getD n (.request (.buildTargetSources (.i32 2) ⟨[]⟩))

theorem endless_answers (n : Nat) : Spec.answers sampleHandler (Spec.session [.buildTargetSources (.i32 0) ⟨[]⟩] (.i32 1) sampleInit
      ([.request (.buildTargetSources (.i32 2) ⟨[]⟩), .response ⟨.i32 3, none, none⟩] ++
        List.replicate n (.request (.buildTargetSources (.i32 2) ⟨[]⟩)))) =
    Spec.answers sampleHandler (Spec.session [.buildTargetSources (.i32 0) ⟨[]⟩] (.i32 1) sampleInit
        [.request (.buildTargetSources (.i32 2) ⟨[]⟩), .response ⟨.i32 3, none, none⟩]) ++
      List.replicate n (reply (.buildTargetSources (.i32 2) ⟨[]⟩)) := by
  have hn : Spec.NoShutdown (List.replicate n (Message.request (.buildTargetSources (.i32 2) ⟨[]⟩))) := by
    intro i hi
    cases (List.mem_replicate.1 hi).2
  have e : ∀ (pre : List Message), Spec.session [.buildTargetSources (.i32 0) ⟨[]⟩] (.i32 1) sampleInit
      (pre ++ List.replicate n (.request (.buildTargetSources (.i32 2) ⟨[]⟩))) =
      Spec.session [.buildTargetSources (.i32 0) ⟨[]⟩] (.i32 1) sampleInit pre ++
        List.replicate n (.request (.buildTargetSources (.i32 2) ⟨[]⟩)) := by
    intro pre; simp [Spec.session]
  have hr : Spec.requests (List.replicate n (Message.request (.buildTargetSources (.i32 2) ⟨[]⟩))) =
      List.replicate n (.buildTargetSources (.i32 2) ⟨[]⟩) := by
    clear hn e
    induction n with
    | zero => rfl
    | succ n ih => simp only [List.replicate_succ, Spec.requests]; rw [← ih]
  have hp := samplePlan
  rw [e, answers_eq, answers_eq, feed_append, feed_session hp.refused hp.accepts (plan_pre hp).1, feed_pre hn, hr,
    List.map_replicate]

theorem endlessPlan (n : Nat) : Spec.Plan sampleHandler
    (sampleSaid ++ List.replicate n (.request (.buildTargetSources (.i32 2) ⟨[]⟩)))
    [.buildTargetSources (.i32 0) ⟨[]⟩] (.i32 1) sampleInit (.ofJson (.str "c"))
    ([.request (.buildTargetSources (.i32 2) ⟨[]⟩), .response ⟨.i32 3, none, none⟩] ++
      List.replicate n (.request (.buildTargetSources (.i32 2) ⟨[]⟩))) := by
  have hp := samplePlan
  refine ⟨?_, ?_, ?_, hp.refused, hp.accepts, ?_⟩
  · intro m hm
    rcases List.mem_append.1 hm with hm | hm
    · exact hp.sayable m hm
    · rw [(List.mem_replicate.1 hm).2]
      exact hp.sayable _ (by simp [sampleSaid])
  · intro hm
    rcases List.mem_append.1 hm with hm | hm
    · exact hp.noExit hm
    · cases (List.mem_replicate.1 hm).2
  · rw [List.map_append, hp.heard]
    simp [Spec.session, Spec.heard, Message.norm, Request.norm]
  · intro m hm
    rw [endless_answers] at hm
    rcases List.mem_append.1 hm with hm | hm
    · exact hp.carried m hm
    · rw [(List.mem_replicate.1 hm).2]
      refine hp.carried _ ?_
      rw [answers_eq]
      simp [Spec.session, feed, round, onRecv, toSend, onSent, sampleHandler, reply]

theorem endless_prefix (n : Nat) : (List.range n).map endlessSaid <+:
    sampleSaid ++ List.replicate n (.request (.buildTargetSources (.i32 2) ⟨[]⟩)) := by
  rw [List.prefix_iff_eq_take]
  refine List.ext_getElem (by simp) ?_
  intro i h1 h2
  simp only [List.length_map, List.length_range] at h1
  simp only [List.getElem_map, List.getElem_range, List.getElem_take, endlessSaid, List.getD]
  by_cases hi : i < sampleSaid.length
  · rw [List.getElem_append_left hi, List.getElem?_eq_getElem hi]; rfl
  · rw [List.getElem_append_right (by omega), List.getElem?_eq_none (by omega), List.getElem_replicate]; rfl

/-- Beside C123: a client that goes on asking for ever, through buffers of one byte each way, gets as many answers as
you like. -/
example (kc ks : Kind) (n : Nat) : ∃ s, Run ⟨1, 1⟩ kc ks sampleHandler s ∧ Scheduled ⟨1, 1⟩ kc ks sampleHandler s ∧
    (∀ n, Spec.GoesOn sampleHandler (s n)) ∧ ∃ m, n ≤ (s m).client.io.delivered.length := by
  obtain ⟨s, h1, h2, h3, h4, h5⟩ := C123_exists (c := ⟨1, 1⟩) (process := sampleHandler) (by simp) (by simp) kc ks endlessSaid
    (fun n => ⟨_, _, _, _, _, _, endlessPlan n, endless_prefix n⟩)
  refine ⟨s, h1, h2, h3, ?_⟩
  obtain ⟨m, hm⟩ := h5 (n + 5)
  obtain ⟨m', _, hm'⟩ := C123_answered (by simp) (by simp) h1 h2 h3 m
  have e : (List.range (n + 5)).map endlessSaid =
      sampleSaid ++ List.replicate n (.request (.buildTargetSources (.i32 2) ⟨[]⟩)) := by
    have h := endless_prefix (n + 5)
    have e : sampleSaid ++ List.replicate n (.request (.buildTargetSources (.i32 2) ⟨[]⟩)) <+:
        sampleSaid ++ List.replicate (n + 5) (.request (.buildTargetSources (.i32 2) ⟨[]⟩)) := by
      rw [List.prefix_append_right_inj, ← List.replicate_append_replicate]
      exact List.prefix_append _ _
    have hl : ((List.range (n + 5)).map endlessSaid).length =
        (sampleSaid ++ List.replicate n (Message.request (.buildTargetSources (.i32 2) ⟨[]⟩))).length := by
      simp [sampleSaid]
    exact (List.prefix_of_prefix_length_le h e (by omega)).eq_of_length hl
  rw [e] at hm
  have h6 : (Spec.answers sampleHandler ((sampleSaid ++ List.replicate n
      (Message.request (.buildTargetSources (.i32 2) ⟨[]⟩))).map Spec.heard)) <+:
      Spec.answers sampleHandler ((s m).client.io.accepted.map Spec.heard) := by
    refine answers_prefix ?_
    obtain ⟨t, ht⟩ := hm
    rw [← ht, List.map_append (l₂ := t)]
    exact List.prefix_append _ _
  rw [(endlessPlan n).heard, endless_answers] at h6
  have h7 := h6.length_le
  have h8 := hm'.length_le
  rw [List.length_append, List.length_replicate] at h7
  rw [List.length_map] at h8
  exact ⟨m', by omega⟩

/-- Beside C123_heard and C123_sent: in such a run the server receives what the client of C96 says, and the client can send
again after any time. -/
example (kc ks : Kind) (n : Nat) : ∃ s, Run ⟨1, 1⟩ kc ks sampleHandler s ∧ Scheduled ⟨1, 1⟩ kc ks sampleHandler s ∧
    (∃ m, sampleSaid.map Spec.heard <+: (s m).server.io.delivered) ∧ ∃ m, n ≤ m ∧ (s m).client.io.writer = .idle := by
  obtain ⟨s, h1, h2, h3, h4, h5⟩ := C123_exists (c := ⟨1, 1⟩) (process := sampleHandler) (by simp) (by simp) kc ks endlessSaid
    (fun n => ⟨_, _, _, _, _, _, endlessPlan n, endless_prefix n⟩)
  refine ⟨s, h1, h2, ?_, C123_sent (by simp) (by simp) h1 h2 h3 n h4⟩
  obtain ⟨m, hm⟩ := h5 5
  obtain ⟨m', _, hm'⟩ := C123_heard (by simp) (by simp) h1 h2 h3 m
  refine ⟨m', List.IsPrefix.trans ?_ hm'⟩
  obtain ⟨t, ht⟩ := hm
  rw [← ht, List.map_append, show (List.range 5).map endlessSaid = sampleSaid from rfl]
  exact List.prefix_append _ _

end
end Bsp
