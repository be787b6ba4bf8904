/-
C128: the exit of a process with threads.
-/
import Verif.Props.Parting
import Verif.Firm

namespace Bsp
open Frame Json Transport
open Link (Move LinkStep Side)
open Conn (Dbg)
open Session (App toSend onSent)
open Flow (Caps Asks Lets Policy)

section
variable [LawfulExt] [Dbg] [FloatText] {work : Request → List Message → Prop}
variable {k : Kind}

/-! ### The process alone -/

/-- Until the exit the threads do what they do in `Crew`; what they have done then remains. -/
theorem firm_crew {p0 p : Firm.Proc} {as : List Firm.Act} (h : Firm.Steps k work p0 as p) :
    ∃ bs, Crew.Steps k work p0.crew bs p.crew ∧ (∀ b ∈ bs, Firm.Act.crew b ∈ as) ∧
      (p0.exit = none → p.exit = some true → p.crew.main = .ended (.ok ()) ∧ join k p.crew.io = .ok) := by
  induction h with
  | nil => exact ⟨[], .nil _, by simp, fun h1 h2 => by rw [h1] at h2; cases h2⟩
  | @snoc as q a r _ hs ih =>
    obtain ⟨bs, h1, h2, h3⟩ := ih
    cases hs with
    | @run a _ he hc =>
      refine ⟨bs ++ [a], .snoc h1 hc, ?_, fun _ h => by simp only at h; rw [he] at h; cases h⟩
      intro b hb
      rcases List.mem_append.1 hb with hb | hb
      · exact List.mem_append_left _ (h2 b hb)
      · rw [List.mem_singleton.1 hb]; simp
    | abort => exact ⟨bs, h1, fun b hb => List.mem_append_left _ (h2 b hb), fun _ h => by simp at h⟩
    | finish _ hm _ _ =>
      refine ⟨bs, h1, fun b hb => List.mem_append_left _ (h2 b hb), fun _ h => ⟨hm, ?_⟩⟩
      simpa using h

/-- C128: whatever the threads and the peer do, and even if writes fail: if the process exits with success, then there has
been a thread for each request received (before shutdown), each has sent all it had to send, and all of it has been written
and, if the client has asked to shut down, the answer to that too. -/
theorem C128_success {io : Transport.State} {p : Firm.Proc} {as : List Firm.Act} (hio : Reachable k io)
    (hx : io.rxAlive = true) (ht : io.txAlive = true) (h : Firm.Steps k work { crew := { io := io } } as p)
    (he : p.exit = some true) :
    ∃ (pre post sent mine : List Message) (l : List (Request × List Message)),
      p.crew.io.delivered = io.delivered ++ (pre ++ post) ∧ p.crew.io.accepted = io.accepted ++ sent ∧
      p.crew.io.out = p.crew.io.accepted.flatMap Frame.write ∧
      Spec.NoShutdown pre ∧ l.map (·.1) = Spec.requests pre ∧ (∀ x ∈ l, work x.1 x.2) ∧
      Spec.Merged (mine :: l.map (·.2)) sent ∧
      (post = [] ∧ mine = [] ∨
        ∃ id, post = [.request (.shutdown id), .notification .exit] ∧ mine = [Spec.goodbye id]) := by
  obtain ⟨bs, h1, _, h3⟩ := firm_crew h
  obtain ⟨h4, h5⟩ := h3 rfl he
  obtain ⟨ds, sent, I⟩ := crewInv hio hx ht h1
  have hw : p.crew.io.writer = .done := (C58_ok_iff.1 h5).2
  obtain ⟨h6, h7⟩ := C54_drained I.reach hw
  have hnf : p.crew.io.writer ≠ writeError k := by rw [hw]; cases k <;> simp [writeError]
  obtain ⟨l, e1, e2, e3⟩ := crew_done I hnf (I.tx h6).2
  have hst := I.stage
  rw [h4] at hst
  have hre : ∀ {id mine}, Replied k p.crew.io id mine → mine = [Spec.goodbye id] := by
    rintro id mine (h | ⟨_, h⟩)
    · exact h
    · exact absurd h hnf
  generalize p.crew.mine = mine at *
  cases hst with
  | closed i1 i2 => exact ⟨ds, [], sent, [], l, by simpa using I.delivered, I.accepted, h7, i1, e1.trans i2, e2, e3, .inl ⟨rfl, rfl⟩⟩
  | @ended pre id mine m _ i1 i2 i3 i4 i5 =>
    rcases i5 with ⟨rfl, _⟩ | ⟨_, i5⟩
    · exact ⟨pre, _, sent, mine, l, i1 ▸ I.delivered, I.accepted, h7, i2, e1.trans i3, e2, e3, .inr ⟨id, rfl, hre i4⟩⟩
    · exact absurd rfl i5

/-- Steps of the threads are steps of the process. -/
theorem crew_firm {p q : Crew.State} {as : List Pool.Act} (h : Crew.Steps k work p as q) :
    Firm.Steps k work { crew := p } (as.map .crew) { crew := q } := by
  induction h with
  | nil => exact .nil _
  | snoc _ hs ih =>
    rw [List.map_append]
    exact .snoc ih (.run (p := { crew := _ }) rfl hs)

/-- C128: if it exits with an error, work may be lost: a client sends a request and then shutdown, and exit is late; the
process exits although the thread of the request has sent nothing, and no write has failed. -/
theorem C128_lost {io : Transport.State} (hio : Spec.Resting io) {r : Request} {ms : List Message} {sid : RequestId}
    {bs : Bytes} (hn : ∀ id, r ≠ .shutdown id) (hwk : work r ms)
    (hc : Spec.Carries bs [.request r, .request (.shutdown sid)]) :
    ∃ as p, Firm.Steps k work { crew := { io := io } } as p ∧ Firm.Act.crew .writeFails ∉ as ∧ p.exit = some false ∧
      p.crew.io.delivered = io.delivered ++ [.request r, .request (.shutdown sid)] ∧
      p.crew.jobs = [⟨r, [], ms, []⟩] ∧ p.crew.io.accepted = io.accepted ++ [Spec.goodbye sid] ∧
      p.crew.io.out = io.out ++ Frame.write (Spec.goodbye sid) := by
  obtain ⟨b1, f2, rfl, hc, r2⟩ := carries_last (k := k) (ms := [.request r]) hc
  obtain ⟨b0, f1, rfl, hc, r1⟩ := carries_last (k := k) (ms := []) hc
  have hb0 : b0 = [] := by
    generalize h0 : ([] : List Message) = l at hc
    cases hc with
    | nil => rfl
    | snoc => simp at h0
  subst hb0
  obtain ⟨hr, hu, hi, hx, hw, ht⟩ := hio
  let s1 : Transport.State :=
    { io with arrived := io.arrived ++ ([] ++ f1 ++ f2), unread := io.unread ++ ([] ++ f1 ++ f2) }
  have t1 : Crew.Step k work { io := io } .peer { io := s1 } := .io (.arrive _ _ hi) rfl
  let s2 : Transport.State := { s1 with reader := .sending (.request r), unread := f2 }
  have t2 : Crew.Step k work { io := s1 } .thread { io := s2 } := .io (r1 s1 hr _ (by simp [s1, hu])) rfl
  let s3 : Transport.State := { s2 with reader := .reading, delivered := s2.delivered ++ [.request r] }
  have t3 : Crew.Step k work { io := s2 } .worker { io := s3, jobs := [⟨r, [], ms, []⟩] } :=
    .hire (p := { io := s2 }) rfl (.deliver s2 (.request r) rfl hx)
      (by cases r with | shutdown id => exact absurd rfl (hn id) | _ => rfl) hwk
  let s4 : Transport.State := { s3 with reader := .sending (.request (.shutdown sid)), unread := [] }
  have t4 : Crew.Step k work { io := s3, jobs := [⟨r, [], ms, []⟩] } .thread { io := s4, jobs := [⟨r, [], ms, []⟩] } :=
    .io (r2 s3 rfl [] (by simp [s3, s2])) rfl
  let s5 : Transport.State := { s4 with reader := .reading, delivered := s4.delivered ++ [.request (.shutdown sid)] }
  have t5 : Crew.Step k work { io := s4, jobs := [⟨r, [], ms, []⟩] } .worker
      { io := s5, main := .stopping sid, jobs := [⟨r, [], ms, []⟩] } :=
    .recv (p := { io := s4, jobs := [⟨r, [], ms, []⟩] }) rfl (.deliver s4 (.request (.shutdown sid)) rfl hx)
      (by intro r h; cases h)
  let s6 : Transport.State := { s5 with writer := .writing (Frame.write (Spec.goodbye sid)),
                                        accepted := s5.accepted ++ [Spec.goodbye sid] }
  have t6 : Crew.Step k work { io := s5, main := .stopping sid, jobs := [⟨r, [], ms, []⟩] } .worker
      { io := s6, main := .leaving, mine := [Spec.goodbye sid], jobs := [⟨r, [], ms, []⟩] } :=
    .reply (p := { io := s5, main := .stopping sid, jobs := [⟨r, [], ms, []⟩] }) rfl (.accept s5 _ hw ht)
  obtain ⟨as7, t7, a7⟩ := crew_writes (k := k) (work := work)
    (p := { io := s6, main := .leaving, mine := [Spec.goodbye sid], jobs := [⟨r, [], ms, []⟩] }) rfl
  let s7 : Transport.State := { s6 with writer := .idle, out := s6.out ++ Frame.write (Spec.goodbye sid) }
  have t8 : Crew.Step k work { io := s7, main := .leaving, mine := [Spec.goodbye sid], jobs := [⟨r, [], ms, []⟩] } .timeout _ :=
    .timeout rfl
  have t9 : Crew.Step k work _ .drop _ := .dropRx
    (p := { io := s7, main := .ended (.err ("unexpected error during shutdown: " ++ Dbg.timeout)),
            mine := [Spec.goodbye sid], jobs := [⟨r, [], ms, []⟩] }) ⟨_, rfl⟩ hx
  refine ⟨_, _, .snoc (crew_firm (crew_cons t1 (crew_cons t2 (crew_cons t3 (crew_cons t4 (crew_cons t5 (crew_cons t6
    (crew_append t7 (crew_cons t8 (crew_cons t9 (.nil _)))))))))))
    (.abort (p := { crew := _ }) rfl rfl (by simp) rfl), ?_, rfl, ?_, rfl, ?_, ?_⟩
  · have : Pool.Act.writeFails ∉ as7 := fun h => by have := a7 _ h; cases this
    simp [this]
  · simp [s7, s6, s5, s4, s3, s2, s1]
  · simp [s7, s6, s5, s4, s3, s2, s1]
  · simp [s7, s6, s5, s4, s3, s2, s1]

/-! ### With a client, behind finite buffers -/

variable {c : Caps} {kc ks : Kind} {said : List Message} {sends : Policy} {script : List Message}

omit [Dbg] [FloatText] in
/-- The two, until the exit. -/
def hallOf (w : Firm.World) : Hall.World := { client := w.client, server := w.server.crew }

omit [Dbg] [FloatText] in
/-- The events, until the exit. -/
def evOf : Hall.Ev → Firm.Ev
  | .client e => .client e
  | .server a => .server (.crew a)

omit [Dbg] [FloatText] in
theorem side_of {p : Firm.Proc} (he : p.exit = none) : Firm.side p = Hall.side p.crew := by
  simp [Firm.side, Hall.side, he]

omit [Dbg] [FloatText] in
theorem chooses_of {w : Firm.World} {a : Hall.Ev} :
    Firm.Chooses script sends w (evOf a) ↔ Hall.Chooses script sends (hallOf w) a := by
  cases a with
  | server => exact Iff.rfl
  | client e =>
    cases e with
    | exit => exact Iff.rfl
    | act x => cases x <;> exact Iff.rfl

omit [Dbg] [FloatText] in
theorem leaves_of {a : Hall.Ev} : Firm.Leaves (evOf a) ↔ Hall.Leaves a := by
  cases a with
  | server => exact Iff.rfl
  | client e =>
    cases e with
    | exit => exact Iff.rfl
    | act x => cases x <;> exact Iff.rfl

/-- Until the exit they do what they do in `Hall`. -/
theorem firm_moves {w w' : Firm.World} {a : Firm.Ev} (h : Firm.Moves c kc ks work w a w') (he : w'.server.exit = none) :
    w.server.exit = none ∧ ∃ b, a = evOf b ∧ Hall.Step c kc ks work (hallOf w) b (hallOf w') := by
  obtain ⟨h1, h2⟩ := h
  cases h1 with
  | @client ev x hm =>
    refine ⟨he, .client ev, rfl, .client (by rw [side_of he] at hm; exact hm), ?_⟩
    simp only [Firm.sides, side_of he] at h2
    exact h2
  | @server a p hs hp =>
    cases hs with
    | @run b c' h0 hc =>
      refine ⟨h0, .server b, rfl, .server hc ?_, ?_⟩
      · intro hb
        obtain ⟨act, e1, e2⟩ := hp b rfl hb
        rw [side_of h0, side_of (p := { w.server with crew := c' }) h0] at e2
        exact ⟨act, e1, e2⟩
      · simp only [Firm.sides, side_of h0, side_of (p := { w.server with crew := c' }) h0] at h2
        exact h2
    | abort => cases he
    | finish => cases he

/-- And what they can do there they can do here. -/
theorem moves_firm {w : Firm.World} {v : Hall.World} {b : Hall.Ev} (he : w.server.exit = none)
    (h : Hall.Step c kc ks work (hallOf w) b v) :
    Firm.Moves c kc ks work w (evOf b) { client := v.client, server := { crew := v.server } } := by
  obtain ⟨h1, h2⟩ := h
  obtain ⟨cl, cr, ex⟩ := w
  subst he
  cases h1 with
  | client hm => exact ⟨.client hm, h2⟩
  | @server a p hs hp =>
    refine ⟨.server (.run rfl hs) ?_, h2⟩
    rintro b hb hb'
    cases hb
    exact hp hb'

theorem waits_of {w : Firm.World} (he : w.server.exit = none) (h : Firm.Waits c kc ks work script sends w) :
    Hall.Waits c kc ks work script sends (hallOf w) := by
  intro a v h1 h2
  rcases h _ _ (moves_firm he h1) (chooses_of.2 h2) with h3 | h3
  · exact .inl (leaves_of.1 h3)
  · cases a with
    | client => cases h3
    | server a => cases h3; exact .inr rfl

/-- The invariant after the exit. -/
structure Parted (kc ks : Kind) (work : Request → List Message → Prop) (w0 : Firm.World) (said : List Message)
    (w : Firm.World) : Prop where
  exit : w.server.exit = some true
  link : Link.Reachable kc ks (Firm.sides w)
  leaving : Spec.Leaving (w0.client.io.accepted ++ said) (Firm.sides w)
  done : join ks w.server.crew.io = .ok
  last : Message.notification .exit ∈ w.server.crew.io.delivered
  work : ∃ ds sent, ∃ l : List (Request × List Message), w.server.crew.io.delivered = w0.server.crew.io.delivered ++ ds ∧
    w.server.crew.io.accepted = w0.server.crew.io.accepted ++ sent ∧
    l.map (·.1) = Spec.requests ds ∧ (∀ x ∈ l, work x.1 x.2) ∧ Spec.Merged (l.map (·.2)) sent

/-- The main thread exits, having received exit and after everything has been written. -/
theorem parted_exit {w0 w : Firm.World} {p : Firm.Proc} {bs : List Pool.Act} (hm : Spec.Met kc ks (hallOf w0))
    (hw : Spec.Works work) (h0 : w.server.exit = none) (h : Parting kc ks work (hallOf w0) said bs (hallOf w))
    (hs : Firm.Step ks work w.server .exit p) : Parted kc ks work w0 said { w with server := p } := by
  obtain ⟨ds, sent, I, i1, i2, i3, i4⟩ := parting_crew hm hw h.link h.crew h.leaving.okA
  have hi := leaveInv h.link h.leaving
  obtain ⟨rA, rB⟩ := leave_reader h.link h.leaving hi
  have hlink : Link.Reachable kc ks (Firm.sides w) := by
    simp only [Firm.sides, side_of h0]
    exact h.link
  cases hs with
  | abort _ h1 h2 =>
    rcases i3 with i3 | ⟨i3, _⟩
    · exact absurd (i3.symm.trans h1) (by simp)
    · have := i3.symm.trans h1
      cases this
      exact absurd rfl h2
  | finish _ h1 _ h2 =>
    have hend : w.server.crew.io.reader.ended = true := by
      rcases i3 with i3 | ⟨_, i3⟩
      · exact absurd (i3.symm.trans h1) (by simp)
      · exact i3
    obtain ⟨d1, d2⟩ := rB hend
    simp only [Hall.sides, Hall.side, hallOf] at d1 d2
    have hwr : w.server.crew.io.writer = .done := by
      unfold join at h2
      rw [d1] at h2
      cases e : w.server.crew.io.writer with
      | failed => exact absurd e hi.wB.1
      | panicked => exact absurd e hi.wB.2
      | done => rfl
      | _ => simp [e] at h2
    have hj : join ks w.server.crew.io = .ok := C58_ok_iff.2 ⟨d1, hwr⟩
    have hnf : w.server.crew.io.writer ≠ writeError ks := by rw [hwr]; cases ks <;> simp [writeError]
    obtain ⟨l, e1, e2, e3⟩ := crew_done I hnf (I.tx (C54_drained I.reach hwr).1).2
    rw [i1] at e3
    refine ⟨by simp [hj], .step hlink (.right (ev := .exit) (l := Firm.sides w) ?_), ?_, hj, d2, ds, sent, l, I.delivered, I.accepted,
      e1.trans i2, e2, merged_tail e3⟩
    · simp only [Firm.sides, Firm.side, h0]
      exact .exit rfl
    · exact ⟨⟨h.leaving.gone.1, fun _ => ⟨by simp [Firm.sides, Firm.side, d1, Reader.ended],
        by simp [Firm.sides, Firm.side, hwr, Writer.ended]⟩⟩, h.leaving.okA, h.leaving.okB, h.leaving.before, h.leaving.sentA,
        h.leaving.sentB, h.leaving.rxA, h.leaving.rxB⟩

/-- What a step does to what the client has sent. -/
theorem firm_said {u w : Firm.World} {as : List Firm.Ev} (h : Firm.Dialog c kc ks work script sends u as w)
    (h0 : u.client.io.accepted <+: script) :
    u.client.io.accepted <+: w.client.io.accepted ∧ w.client.io.accepted <+: script := by
  induction h with
  | nil => exact ⟨List.prefix_refl _, h0⟩
  | @snoc as v a u hd hs ht ih =>
    obtain ⟨h1, h2⟩ := ih
    have hs := hs.goes
    cases hs with
    | server => exact ⟨h1, h2⟩
    | client hm =>
      cases hm with
      | own _ hst =>
        cases hst with
        | accept m => exact ⟨h1.trans (List.prefix_append _ _), ht.1⟩
        | read r _ _ => cases r <;> exact ⟨h1, h2⟩
        | _ => exact ⟨h1, h2⟩
      | arrive _ _ _ hst => cases hst; exact ⟨h1, h2⟩
      | fin _ _ _ hst => cases hst; exact ⟨h1, h2⟩
      | reset _ _ _ _ hst => cases hst; exact ⟨h1, h2⟩
      | fails _ _ _ _ hst => cases hst; exact ⟨h1, h2⟩
      | exit => exact ⟨h1, h2⟩

theorem parted {w0 w : Firm.World} {as : List Firm.Ev} (hm : Spec.Met kc ks (hallOf w0)) (h0 : w0.server.exit = none)
    (hw : Spec.Works work) (hok : ∀ m ∈ said, Spec.Sayable m ∧ m ≠ .notification .exit)
    (h : Firm.Dialog c kc ks work (w0.client.io.accepted ++ (said ++ [.notification .exit])) sends w0 as w)
    (hg : w.client.gone = false) (hr : w.client.io.rxAlive = true) :
    (w.server.exit = none ∧ ∃ bs, Hall.Dialog c kc ks work (w0.client.io.accepted ++ (said ++ [.notification .exit])) sends
      (hallOf w0) bs (hallOf w)) ∨ Parted kc ks work w0 said w := by
  have key : ∀ {script : List Message} {u w : Firm.World} {as}, Firm.Dialog c kc ks work script sends u as w → u = w0 →
      script = w0.client.io.accepted ++ (said ++ [.notification .exit]) → w.client.gone = false →
      w.client.io.rxAlive = true →
      (w.server.exit = none ∧ ∃ bs, Hall.Dialog c kc ks work script sends (hallOf w0) bs (hallOf w)) ∨
        Parted kc ks work w0 said w := by
    intro script u w as h
    induction h with
    | nil => rintro rfl _ _ _; exact .inl ⟨h0, [], .nil _⟩
    | @snoc as v a u hd hs ht ih =>
      rintro rfl rfl hg hr
      have hv := ih rfl rfl (by
        have hs := hs.goes
        cases hs with
        | server => exact hg
        | client hmv =>
          cases e : v.client.gone with
          | false => rfl
          | true => have := (move_grows hmv).gone e; simp only at hg; rw [hg] at this; cases this) (by
        have hs := hs.goes
        cases hs with
        | server => exact hr
        | client hmv => exact (move_grows hmv).rx hr)
      rcases hv with ⟨hx, bs, hv⟩ | hv
      · cases he : u.server.exit with
        | none =>
          obtain ⟨_, b, rfl, h2⟩ := firm_moves hs he
          exact .inl ⟨rfl, bs ++ [b], .snoc hv h2 (chooses_of.1 ht)⟩
        | some x =>
          have hs := hs.goes
          cases hs with
          | client => simp only at he; rw [hx] at he; cases he
          | @server a p hst hp =>
            cases a with
            | crew b => cases hst; simp only at he; rw [hx] at he; cases he
            | exit =>
              obtain ⟨bs', hh⟩ := parting hm hw hok hv hg hr
              exact .inr (parted_exit hm hw hx hh hst)
      · have hsaid := (firm_said (.snoc hd hs ht) (List.prefix_append _ _)).2
        rw [← List.append_assoc] at hsaid
        have okA : ∀ m ∈ u.client.io.accepted, Spec.Sayable m := by
          intro m h1
          rcases List.mem_append.1 (hsaid.subset h1) with h1 | h1
          · rcases List.mem_append.1 h1 with h1 | h1
            · exact (hm.sayable m (.inl h1)).1
            · exact (hok m h1).1
          · rw [List.mem_singleton.1 h1]; exact exit_sayable
        have hs := hs.goes
        cases hs with
        | client hmv =>
          exact .inr ⟨hv.exit, .step hv.link (.left (l := Firm.sides v) hmv), ⟨⟨hg, hv.leaving.gone.2⟩, okA, hv.leaving.okB,
            hv.leaving.before, hsaid, hv.leaving.sentB, hr, hv.leaving.rxB⟩, hv.done, hv.last, hv.work⟩
        | server hst =>
          have h1 := hv.exit
          cases hst with
          | run h0 => rw [h0] at h1; cases h1
          | abort h0 => rw [h0] at h1; cases h1
          | finish h0 => rw [h0] at h1; cases h1
  exact key h rfl rfl hg hr

/-- C128: a client as in C127, connected by a socket or by the standard streams, with buffers of any sizes.  When nothing
can happen any more but that the client drops its connection or exits: the process has exited with success, but not
before each request has had its thread and all that these had to send has been written; the client has sent all and
received all of that, and its reader thread has ended well; if it has dropped its sender, `join` returns Ok. -/
theorem C128_parted (hc : 1 ≤ c.toRight) (hc' : 1 ≤ c.toLeft) {w0 w : Firm.World} {as : List Firm.Ev}
    (hm : Spec.Met kc ks (hallOf w0)) (h0 : w0.server.exit = none)
    (hw : Spec.Works work) (hok : ∀ m ∈ said, Spec.Sayable m ∧ m ≠ .notification .exit)
    (hp : Spec.Patient work w0.client.io.accepted w0.client.io.delivered (said ++ [.notification .exit]) sends)
    (h : Firm.Dialog c kc ks work (w0.client.io.accepted ++ (said ++ [.notification .exit])) sends w0 as w)
    (hg : w.client.gone = false) (hr : w.client.io.rxAlive = true)
    (ht : w.client.io.txAlive = true ∨ w.client.io.accepted = w0.client.io.accepted ++ (said ++ [.notification .exit]))
    (hq : Firm.Waits c kc ks work (w0.client.io.accepted ++ (said ++ [.notification .exit])) sends w) :
    w.server.exit = some true ∧
    w.client.io.accepted = w0.client.io.accepted ++ (said ++ [.notification .exit]) ∧
    w.client.io.reader = .done ∧ (w.client.io.txAlive = false → join kc w.client.io = .ok) ∧
    ∃ (l : List (Request × List Message)) (sent : List Message), l.map (·.1) = Spec.requests (said.map Spec.heard) ∧
      (∀ x ∈ l, work x.1 x.2) ∧ Spec.Merged (l.map (·.2)) sent ∧
      w.client.io.delivered = w0.client.io.delivered ++ sent.map Spec.heard := by
  rcases parted hm h0 hw hok h hg hr with ⟨he, bs, hd⟩ | hh
  · exfalso
    obtain ⟨_, h2, h3, _⟩ := C127_parted hc hc' hm hw hok hp hd hg hr ht (waits_of he hq)
    have noS : ∀ {a p}, Firm.Step ks work w.server a p → (∀ b, a = .crew b → b ≠ .timeout ∧ b ≠ .peer ∧ b ≠ .writeFails) →
        p.crew.io.out = w.server.crew.io.out → p.crew.io.arrived = w.server.crew.io.arrived → False := by
      intro a p h1 h2 h3 h4
      rcases hq (.server a) _ ⟨.server h1 fun b e1 e2 => (e2.elim (h2 b e1).2.1 (h2 b e1).2.2).elim,
        ⟨.inl rfl, .inl h3, .inl rfl, .inl h4⟩⟩ trivial with h5 | h5
      · exact h5
      · cases h5; exact (h2 _ rfl).1 rfl
    have hx : w.server.crew.io.rxAlive = false := by
      cases e : w.server.crew.io.rxAlive with
      | false => rfl
      | true => exact (noS (.run he (.dropRx ⟨_, h2⟩ e)) (by rintro b hb; cases hb; simp) rfl rfl).elim
    exact noS (.finish he h2 hx (by rw [show join ks w.server.crew.io = _ from h3]; simp)) (by rintro b hb; cases hb) rfl rfl
  · have hi := leaveInv hh.link hh.leaving
    obtain ⟨rA, rB⟩ := leave_reader hh.link hh.leaving hi
    obtain ⟨x1, x2, x3, x4, x5⟩ := exit_received (link_pair hh.link) hh.leaving.okA hh.leaving.before hh.leaving.sentA hh.last
    simp only [Firm.sides, Firm.side] at x1 x2 x3 x4 x5
    obtain ⟨d1, d2⟩ := C58_ok_iff.1 hh.done
    have hall : w.client.io.accepted = w0.client.io.accepted ++ (said ++ [.notification .exit]) := by
      rw [x1, List.append_assoc]
    have hclosed : (Firm.side w.server).closed ks = true := by simp [Side.closed, Firm.side, hh.exit]
    have noC : ∀ {act io}, Move kc ks w.client (Firm.side w.server) (.act act) { w.client with io } →
        Firm.Chooses (w0.client.io.accepted ++ (said ++ [.notification .exit])) sends w (.client (.act act)) →
        ¬ Firm.Leaves (.client (.act act)) →
        (io.out = w.client.io.out ∨ io.out.length ≤ w.server.crew.io.arrived.length + c.toRight) →
        (io.arrived = w.client.io.arrived ∨ Asks w.client.io) → False := by
      intro act io h2 h0 h1 h3 h4
      rcases hq (.client (.act act)) _ ⟨.client h2, ⟨h3, .inl rfl, h4, .inl rfl⟩⟩ h0 with h6 | h6
      · exact h1 h6
      · cases h6
    have hwf : ∀ b r, w.client.io.writer ≠ .writing (b :: r) := by
      intro b r e
      have h1 := writeInv (pair_inv (link_pair hh.link)).1
      simp only [Firm.sides, WriteInv, e] at h1
      obtain ⟨ms, m, sent, e1, e2, e3⟩ := h1
      have := congrArg List.length x3
      rw [e1, e3, List.flatMap_append, List.flatMap_singleton, e2] at this
      simp at this
    have hqm : ∀ ev a, Move kc ks w.client (Firm.side w.server) ev a → ev.app = true := by
      intro ev a hmv
      refine Classical.byContradiction fun happ => ?_
      cases hmv with
      | exit => exact happ rfl
      | fin h1 h2 h3 h4 => exact noC (.fin h1 h2 h3 h4) trivial id (by cases h4; exact .inl rfl) (by cases h4; exact .inl rfl)
      | reset h1 h2 h3 h4 h5 =>
        exact noC (.reset h1 h2 h3 h4 h5) trivial id (by cases h5; exact .inl rfl) (by cases h5; exact .inl rfl)
      | fails h1 h2 h3 h4 h5 =>
        exact noC (.fails h1 h2 h3 h4 h5) trivial id (by cases h5; exact .inl rfl) (by cases h5; exact .inl rfl)
      | arrive h1 h2 h3 h4 =>
        refine noC (.arrive h1 h2 h3 h4) trivial id (by cases h4; exact .inl rfl) (.inr ?_)
        have hin : w.client.io.inEnd = none := by cases h4 with | arrive _ h => exact h
        cases e : w.client.io.reader.ended with
        | true =>
          have := (rA e).2.1
          simp only [Firm.sides] at this
          rw [hin] at this; cases this
        | false =>
          cases e2 : w.client.io.reader with
          | reading =>
            refine ⟨e2, fun r hs => ?_⟩
            exact noC (.own hg (.read _ r e2 hs) (by simp) (by simp) (by simp)) trivial id
              (by cases r <;> exact .inl rfl) (by cases r <;> exact .inl rfl)
          | sending m =>
            exact (noC (.own hg (.deliver _ m e2 hr) (by simp) (by simp) (by simp)) (.inl hall) id (.inl rfl) (.inl rfl)).elim
          | _ => rw [e2] at e; cases e
      | own h1 h2 h3 h4 h5 =>
        have hmv := Move.own (k' := ks) (y := Firm.side w.server) h1 h2 h3 h4 h5
        cases h2 with
        | arrive => exact h3 _ rfl
        | hangUp => exact h4 _ rfl
        | writeFails => exact h5 rfl
        | read r h6 h7 => exact noC hmv trivial id (by cases r <;> exact .inl rfl) (by cases r <;> exact .inl rfl)
        | deliver m h6 h7 => exact noC hmv (.inl hall) id (.inl rfl) (.inl rfl)
        | undeliverable m h6 h7 => exact noC hmv trivial id (.inl rfl) (.inl rfl)
        | dropRx => exact happ rfl
        | dropTx => exact happ rfl
        | accept => exact happ rfl
        | write a b h6 h7 =>
          cases a with
          | nil => exact h7 rfl
          | cons y a => exact hwf _ _ h6
        | written h6 => exact noC hmv trivial id (.inl rfl) (.inl rfl)
        | close h6 h7 => exact noC hmv trivial id (.inl rfl) (.inl rfl)
    obtain ⟨⟨j1, j2⟩, j3⟩ := joined_reader hh.link hh.leaving ⟨d1, hh.last⟩ d2 hclosed hqm
    simp only [Firm.sides, Firm.side] at j1 j2 j3
    refine ⟨hh.exit, hall, j1, fun htc => C58_ok_iff.2 ⟨j1, ?_⟩, ?_⟩
    · cases e : w.client.io.writer with
      | done => rfl
      | failed => exact absurd e hi.wA.1
      | panicked => exact absurd e hi.wA.2
      | idle => exact (noC (.own hg (.close _ e htc) (by simp) (by simp) (by simp)) trivial id (.inl rfl) (.inl rfl)).elim
      | writing r =>
        cases r with
        | nil => exact (noC (.own hg (.written _ e) (by simp) (by simp) (by simp)) trivial id (.inl rfl) (.inl rfl)).elim
        | cons b r => exact absurd e (hwf b r)
    · obtain ⟨ds, sent, l, e1, e2, e3, e4, e5⟩ := hh.work
      refine ⟨l, sent, ?_, e4, e5, ?_⟩
      · have hts := hm.toServer
        simp only [hallOf] at hts
        rw [x2, hall, List.map_append, hts, List.append_cancel_left_eq] at e1
        rw [e3, ← e1, List.map_append]
        exact requests_exit _
      · have htc := hm.toClient
        simp only [hallOf] at htc
        rw [j2, e2, List.map_append, htc]

/-- What the process does while they go on. -/
theorem firm_server {u w : Firm.World} {as : List Firm.Ev} (h : Firm.Dialog c kc ks work script sends u as w) :
    ∃ bs, Firm.Steps ks work u.server bs w.server := by
  induction h with
  | nil => exact ⟨[], .nil _⟩
  | snoc _ hs _ ih =>
    obtain ⟨bs, ih⟩ := ih
    have hs := hs.goes
    cases hs with
    | client => exact ⟨bs, ih⟩
    | server hst => exact ⟨_, .snoc ih hst⟩

/-! ### It gets there -/

omit [Dbg] [FloatText] in
/-- The same client and the same threads, for what is left to be done (C96). -/
def firmWorld (w : Firm.World) : EndToEnd.World :=
  { client := w.client, server := { io := w.server.crew.io, exit := w.server.exit } }

omit [Dbg] [FloatText] in
/-- What is left to be done. -/
def firmWork (script : List Message) (w : Firm.World) : Nat × Nat × Nat × (Nat × Nat × Nat) × Nat :=
  (w.server.exit.isNone.toNat, script.length - w.client.io.accepted.length, toServer (firmWorld w),
    crewWork w.server.crew, toClient (firmWorld w))

theorem firmWork_decreases {w w' : Firm.World} {a : Firm.Ev} (hs : Firm.Moves c kc ks work w a w')
    (ht : Firm.Chooses script sends w a) (hl : ¬ Firm.Leaves a) :
    Prod.Lex (· < ·) (Prod.Lex (· < ·) (Prod.Lex (· < ·) (Prod.Lex (Prod.Lex (· < ·) (Prod.Lex (· < ·) (· < ·))) (· < ·))))
      (firmWork script w') (firmWork script w) := by
  have hs := hs.goes
  cases hs with
  | @client ev x hm =>
    refine Prod.lex_def.2 (.inr ⟨rfl, ?_⟩)
    by_cases ha : ∃ m, ev = .act (.accept m)
    · obtain ⟨m, rfl⟩ := ha
      have hle := List.IsPrefix.length_le ht.1
      refine .left _ _ ?_
      cases hm with
      | own _ hst =>
        cases hst with
        | accept m =>
          simp only [List.length_append, List.length_singleton] at hle ⊢
          omega
    · have happ : ev.app = false := by
        cases ev with
        | exit => exact absurd trivial hl
        | act y =>
          cases y with
          | accept m => exact absurd ⟨m, rfl⟩ ha
          | dropRx => exact absurd trivial hl
          | dropTx => exact absurd trivial hl
          | _ => rfl
      have hacc : x.io.accepted = w.client.io.accepted := (move_keeps hm happ).2.1
      refine Prod.lex_def.2 (.inr ⟨by simp only [firmWork, hacc], ?_⟩)
      rcases client_work (w := firmWorld w) hm happ with h1 | ⟨h1, h2⟩
      · exact .left _ _ h1
      · exact Prod.lex_def.2 (.inr ⟨h1, Prod.lex_def.2 (.inr ⟨rfl, h2⟩)⟩)
  | @server a p hst hpe =>
    cases hst with
    | abort h0 => exact .left _ _ (by simp [h0])
    | finish h0 => exact .left _ _ (by simp [h0])
    | @run a q h0 hst =>
      refine Prod.lex_def.2 (.inr ⟨rfl, Prod.lex_def.2 (.inr ⟨rfl, ?_⟩)⟩)
      by_cases h1 : a = .peer
      · obtain ⟨act, h2, h3⟩ := hpe a rfl (.inl h1)
        refine .left _ _ (peer_work (w := firmWorld w) (p := { io := q.io, exit := w.server.exit }) (act := act) ?_ h3)
        rw [h1] at h2
        cases act <;> first | rfl | cases h2
      · have h2 := crew_takes hst h1
        refine Prod.lex_def.2 (.inr ⟨?_, .left _ _ (crewWork_decreases hst h1)⟩)
        simp only [firmWork, firmWorld, toServer, h2]

/-- C128: whatever the client decides, it gets to where nothing more happens, unless the client leaves. -/
theorem C128_terminates (c : Caps) (kc ks : Kind) (work : Request → List Message → Prop) (script : List Message)
    (sends : Policy) : WellFounded fun w' w : Firm.World =>
      ∃ a, Firm.Moves c kc ks work w a w' ∧ Firm.Chooses script sends w a ∧ ¬ Firm.Leaves a :=
  Subrelation.wf (fun ⟨_, h1, h2, h3⟩ => firmWork_decreases h1 h2 h3)
    (InvImage.wf (firmWork script) (Prod.lex ⟨_, Nat.lt_wfRel.wf⟩ ⟨_, (Prod.lex ⟨_, Nat.lt_wfRel.wf⟩ ⟨_, (Prod.lex ⟨_,
      Nat.lt_wfRel.wf⟩ ⟨_, (Prod.lex ⟨_, (Prod.lex ⟨_, Nat.lt_wfRel.wf⟩ ⟨_, (Prod.lex ⟨_, Nat.lt_wfRel.wf⟩ ⟨_,
      Nat.lt_wfRel.wf⟩).wf⟩).wf⟩ ⟨_, Nat.lt_wfRel.wf⟩).wf⟩).wf⟩).wf⟩).wf)

theorem firm_append {u w x : Firm.World} {as bs : List Firm.Ev}
    (h1 : Firm.Dialog c kc ks work script sends u as w) (h2 : Firm.Dialog c kc ks work script sends w bs x) :
    Firm.Dialog c kc ks work script sends u (as ++ bs) x := by
  induction h2 with
  | nil => simpa using h1
  | snoc _ h4 h5 ih => rw [← List.append_assoc]; exact .snoc ih h4 h5

/-- It goes on until nothing more happens, the client neither dropping anything nor exiting. -/
theorem firm_settle (c : Caps) (kc ks : Kind) (work : Request → List Message → Prop) (script : List Message)
    (sends : Policy) (w : Firm.World) : ∃ as u, Firm.Dialog c kc ks work script sends w as u ∧
      Firm.Waits c kc ks work script sends u ∧ u.client.gone = w.client.gone ∧ u.client.io.rxAlive = w.client.io.rxAlive ∧
      u.client.io.txAlive = w.client.io.txAlive := by
  refine (C128_terminates c kc ks work script sends).induction (C := fun w => ∃ as u,
    Firm.Dialog c kc ks work script sends w as u ∧ Firm.Waits c kc ks work script sends u ∧
      u.client.gone = w.client.gone ∧ u.client.io.rxAlive = w.client.io.rxAlive ∧
      u.client.io.txAlive = w.client.io.txAlive) w ?_
  intro w ih
  by_cases hq : Firm.Waits c kc ks work script sends w
  · exact ⟨[], w, .nil w, hq, rfl, rfl, rfl⟩
  simp only [Firm.Waits, Classical.not_forall, not_or] at hq
  obtain ⟨a, u, h1, h2, n1, _⟩ := hq
  obtain ⟨as, r, h3, h4, k1, k2, k3⟩ := ih u ⟨a, h1, h2, n1⟩
  have keep : u.client.gone = w.client.gone ∧ u.client.io.rxAlive = w.client.io.rxAlive ∧
      u.client.io.txAlive = w.client.io.txAlive := by
    have hs := h1.goes
    cases hs with
    | server => exact ⟨rfl, rfl, rfl⟩
    | @client ev x hm =>
      cases ha : ev.app with
      | false => obtain ⟨i1, _, i2, i3⟩ := move_keeps hm ha; exact ⟨i1, i2, i3⟩
      | true =>
        cases hm with
        | own _ hst =>
          cases hst with
          | accept m => exact ⟨rfl, rfl, rfl⟩
          | dropRx => exact absurd trivial n1
          | dropTx => exact absurd trivial n1
          | _ => cases ha
        | exit => exact absurd trivial n1
        | _ => cases ha
  exact ⟨[a] ++ as, r, firm_append (.snoc (.nil _) h1 h2) h3, h4, k1.trans keep.1, k2.trans keep.2.1, k3.trans keep.2.2⟩

/-- C128: so there is a run in which the client says all, is served, says exit and drops its sender, the process exits with
success and the client ends well. -/
theorem C128_reached (hc : 1 ≤ c.toRight) (hc' : 1 ≤ c.toLeft) {w0 : Firm.World} (hm : Spec.Met kc ks (hallOf w0))
    (h0 : w0.server.exit = none)
    (hg : w0.client.gone = false) (hr : w0.client.io.rxAlive = true) (ht : w0.client.io.txAlive = true)
    (hw : Spec.Works work) (hok : ∀ m ∈ said, Spec.Sayable m ∧ m ≠ .notification .exit)
    (hp : Spec.Patient work w0.client.io.accepted w0.client.io.delivered (said ++ [.notification .exit]) sends) :
    ∃ as w, Firm.Dialog c kc ks work (w0.client.io.accepted ++ (said ++ [.notification .exit])) sends w0 as w ∧
      w.server.exit = some true ∧ w.client.io.accepted = w0.client.io.accepted ++ (said ++ [.notification .exit]) ∧
      join kc w.client.io = .ok ∧
      ∃ (l : List (Request × List Message)) (sent : List Message), l.map (·.1) = Spec.requests (said.map Spec.heard) ∧
        (∀ x ∈ l, work x.1 x.2) ∧ Spec.Merged (l.map (·.2)) sent ∧
        w.client.io.delivered = w0.client.io.delivered ++ sent.map Spec.heard := by
  obtain ⟨as, v, h1, h2, k1, k2, k3⟩ :=
    firm_settle c kc ks work (w0.client.io.accepted ++ (said ++ [.notification .exit])) sends w0
  obtain ⟨_, h3, _⟩ := C128_parted hc hc' hm h0 hw hok hp h1 (k1.trans hg) (k2.trans hr) (.inl (k3.trans ht)) h2
  have hst : Firm.Moves c kc ks work v (.client (.act .dropTx))
      { v with client := { v.client with io := { v.client.io with txAlive := false } } } :=
    ⟨.client (.own (k1.trans hg) (.dropTx _) (by simp) (by simp) (by simp)),
      ⟨.inl rfl, .inl rfl, .inl rfl, .inl rfl⟩⟩
  obtain ⟨bs, w, h4, h5, k4, k5, k6⟩ := firm_settle c kc ks work
    (w0.client.io.accepted ++ (said ++ [.notification .exit])) sends
    { v with client := { v.client with io := { v.client.io with txAlive := false } } }
  have h6 := firm_append (.snoc h1 hst trivial) h4
  have hsent : w.client.io.accepted = w0.client.io.accepted ++ (said ++ [.notification .exit]) := by
    obtain ⟨e1, e2⟩ := firm_said h4 (by simp only [h3]; exact List.prefix_refl _)
    simp only [h3] at e1
    exact e2.eq_of_length_le e1.length_le
  obtain ⟨e1, e2, e3, e4, e5⟩ := C128_parted hc hc' hm h0 hw hok hp h6 (k4.trans (k1.trans hg)) (k5.trans (k2.trans hr))
    (.inr hsent) h5
  exact ⟨_, w, h6, e1, e2, e4 k6, e5⟩

end
section
attribute [local instance] Ext.sample FloatText.sample Dbg.sample

/-- Beside C128_parted, C128_terminates and C128_reached: through buffers of one byte on the standard streams a client sends
thirteen requests and exit at once; the process exits with success, and the client has received the answers. -/
example : ∃ as w, Firm.Dialog ⟨1, 1⟩ .stdio .stdio noteWork (manySaid 10 ++ [.notification .exit]) (fun _ _ => true)
      { client := hallStart.client, server := { crew := hallStart.server } } as w ∧
    w.server.exit = some true ∧ join .stdio w.client.io = .ok ∧
    ∃ (l : List (Request × List Message)) (sent : List Message),
      l.length = 13 ∧ (∀ x ∈ l, noteWork x.1 x.2) ∧ Spec.Merged (l.map (·.2)) sent ∧
      w.client.io.delivered = sent.map Spec.heard := by
  obtain ⟨as, w, h1, h2, _, h3, l, sent, e1, e2, e3, e4⟩ := C128_reached (c := ⟨1, 1⟩) (kc := .stdio) (ks := .stdio)
    (said := manySaid 10) (sends := fun _ _ => true)
    (w0 := { client := hallStart.client, server := { crew := hallStart.server } })
    (by simp) (by simp) (hallStart_met _ _) rfl rfl rfl rfl noteWorks (many_ok 10)
    (fun _ _ _ _ h => by cases h)
  refine ⟨as, w, h1, h2, h3, l, sent, ?_, e2, e3, e4⟩
  have := congrArg List.length e1
  rw [many_requests, List.length_map] at this
  exact this

/-- Beside C128_success: what the process has done by then, for one that has met a client. -/
example : ∃ as p, Firm.Steps .stdio noteWork { crew := { io := hallStart.server.io } } as p ∧ p.exit = some true ∧
    p.crew.io.out = p.crew.io.accepted.flatMap Frame.write ∧
    ∃ pre post : List Message, p.crew.io.delivered = pre ++ post ∧ Spec.NoShutdown pre := by
  obtain ⟨as, w, h1, h2, _⟩ := C128_reached (c := ⟨1, 1⟩) (kc := .stdio) (ks := .stdio)
    (said := manySaid 10) (sends := fun _ _ => true)
    (w0 := { client := hallStart.client, server := { crew := hallStart.server } })
    (by simp) (by simp) (hallStart_met _ _) rfl rfl rfl rfl noteWorks (many_ok 10)
    (fun _ _ _ _ h => by cases h)
  obtain ⟨bs, h3⟩ := firm_server h1
  obtain ⟨pre, post, sent, mine, l, e1, _, e2, e3, _⟩ := C128_success (io := hallStart.server.io) (reachable_start _) rfl rfl
    h3 h2
  exact ⟨bs, _, h3, h2, e2, pre, post, by simpa [hallStart] using e1, e3⟩

/-- Beside C128_lost: a request to reload, and shutdown; the thread has two messages to send when the process exits. -/
example (k : Kind) : ∃ as p, Firm.Steps k sampleWork { crew := { io := {} } } as p ∧ p.exit = some false ∧
    p.crew.jobs = [⟨.workspaceReload (.str "a"), [], [.notification .exit, .response ⟨.str "a", some Value.null, none⟩], []⟩] ∧
    p.crew.io.out = Frame.write (Spec.goodbye (.i32 3)) := by
  obtain ⟨as, p, h1, _, h2, _, h3, _, h4⟩ := C128_lost (k := k) (work := sampleWork) resting_start
    (r := .workspaceReload (.str "a")) (ms := [.notification .exit, .response ⟨.str "a", some Value.null, none⟩])
    (sid := .i32 3) (bs := framed (samplePool.drop 1 ++ sampleLeave.take 1)) (by simp) ⟨[.exit], rfl⟩
    (carries_framed fun x hx => samplePool_ok x
      ((List.Sublist.append (List.drop_sublist 1 samplePool) (List.take_sublist 1 sampleLeave)).subset hx))
  exact ⟨as, p, h1, h2, h3, by simpa using h4⟩

/-- Beside C128_terminates: no run from here is infinite unless the client leaves. -/
example (c : Caps) (k : Kind) : Acc (fun w' w : Firm.World => ∃ a, Firm.Moves c k k sampleWork w a w' ∧
    Firm.Chooses (manySaid 10) (fun _ _ => true) w a ∧ ¬ Firm.Leaves a)
    { client := {}, server := { crew := { io := {} } } } :=
  (C128_terminates c k k sampleWork (manySaid 10) fun _ _ => true).apply _

end
end Bsp
