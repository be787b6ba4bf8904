/-
C80: the outcome of a process does not depend on the schedule.
-/
import Verif.Props.Blocking

namespace Bsp
open Conn Session Transport

section
variable [Ext] [Dbg] {process : InitializeBuild → Option Value} [FloatText] {k : Kind}

/-- All that comes from the peer: bytes, and whether the input ends after them and how. -/
def Spec.stream (bytes : Bytes) (ends : Option Bool) : State := { arrived := bytes, inEnd := ends }

/-- The input of the process is this stream: all of it has arrived, or some of it and the process has exited. -/
def Spec.Fed (p : Proc) (bytes : Bytes) (ends : Option Bool) : Prop :=
  (p.io.arrived = bytes ∧ p.io.inEnd = ends) ∨
  (p.exit ≠ none ∧ p.io.arrived <+: bytes ∧ p.io.inEnd = none)

omit [Dbg] in
theorem fed_input {p : Proc} {bytes : Bytes} {ends : Option Bool} (h : Spec.Fed p bytes ends) {ms : List Message}
    {stop : Frame.Stop} (hi : Spec.Input p.io ms stop) : Spec.Input (Spec.stream bytes ends) ms stop := by
  rcases h with ⟨rfl, rfl⟩ | ⟨_, ⟨t, rfl⟩, h⟩
  · exact input_same hi rfl rfl
  · have h1 : Spec.Input (Spec.stream (p.io.arrived ++ t) none) ms stop :=
      input_arrive hi h t rfl rfl
    cases ends with
    | none => exact h1
    | some b => exact input_hangUp h1 rfl b rfl rfl

omit [Dbg] in
theorem fed_prefix {p : Proc} {bytes : Bytes} {ends : Option Bool} (h : Spec.Fed p bytes ends)
    (hr : Reachable k p.io) (more : Bytes) (b : Bool) :
    p.io.delivered <+: (Frame.readAll (⟨bytes ++ more, b⟩ : Frame.Flat)).1 := by
  rcases h with ⟨rfl, rfl⟩ | ⟨_, ⟨t, rfl⟩, h⟩
  · exact C51_prefix hr more b
  · rw [List.append_assoc]
    exact C51_prefix hr _ b

omit [Dbg] in
theorem input_readAll {s : State} {ms : List Message} {stop : Frame.Stop} (h : Spec.Input s ms stop) :
    ∃ b, Frame.readAll (⟨s.arrived, b⟩ : Frame.Flat) = (ms, stop) ∧ ∀ c, s.inEnd = some c → b = c := by
  unfold Spec.Input at h
  split at h <;> rename_i he
  · exact ⟨_, h, fun c hc => by rw [hc] at he; cases he; rfl⟩
  · exact ⟨false, by simpa using h [] false, fun c hc => by rw [hc] at he; cases he⟩

omit [Dbg] in
theorem input_unique {s : State} {ms ms' : List Message} {stop stop' : Frame.Stop} (h : Spec.Input s ms stop)
    (h' : Spec.Input s ms' stop') : ms = ms' ∧ stop = stop' := by
  unfold Spec.Input at h h'
  split at h <;> rename_i he <;> rw [he] at h'
  · exact Prod.mk.inj (h.symm.trans h')
  · have h1 := h [] false
    rw [h' [] false] at h1
    obtain ⟨rfl, rfl⟩ := Prod.mk.inj h1
    exact ⟨rfl, rfl⟩

/-- The main thread was waiting for every message it has received. -/
theorem was_waiting {p : Proc} {as : List Session.Act} (h : Session.Steps k process {} as p)
    (hw : Session.Act.writeFails ∉ as) :
    ∀ ms m, ms ++ [m] <+: p.io.delivered → (feed process .start ms).1.receives = true := by
  have key : ∀ {p0 as p}, Session.Steps k process p0 as p → p0 = ({} : Proc) → Session.Act.writeFails ∉ as →
      ∀ ms m, ms ++ [m] <+: p.io.delivered → (feed process .start ms).1.receives = true := by
    intro p0 as p h
    induction h with
    | nil =>
      intro e _ ms m h
      subst e
      have := h.length_le
      simp at this
    | @snoc as q a r h1 h2 ih =>
      intro e hn ms m hm
      simp only [List.mem_append, List.mem_singleton, not_or] at hn
      subst e
      have ih := ih rfl hn.1 ms m
      cases h2 with
      | io _ h3 h4 => rw [(io_same h3 h4).1] at hm; exact ih hm
      | @recv m' io1 h2 h3 h4 =>
        cases h4 with
        | deliver h5 h6 =>
          rcases List.prefix_concat_iff.1 hm with h7 | h7
          · have h8 : ms = q.io.delivered := (List.append_inj' h7 rfl).1
            rw [h8]
            cases (mainInv h1).at' (no_fail h1 hn.1) with
            | rest h7 h8 => exact h7 ▸ h3
            | sending h7 _ _ => rw [receives_toSend h3] at h7; cases h7
            | closed h7 h8 _ _ _ => exact h7
            | late h7 _ _ _ => rw [h7]; rfl
          · exact ih h7
      | send _ _ hs => cases hs with | accept _ _ _ => exact ih hm
      | _ => exact ih hm
  exact key h rfl hw

/-- What is settled about a process that can go no further. -/
structure Final (process : InitializeBuild → Option Value) (w : State) (p : Proc) : Prop where
  /-- it has received messages of the input -/
  got : ∀ b, p.io.delivered <+: (Frame.readAll (⟨w.arrived, b⟩ : Frame.Flat)).1
  /-- it was ready for each of them -/
  ready : ∀ ms m, ms ++ [m] <+: p.io.delivered →
    (feed process .start ms).1.receives = true ∧ Message.notification .exit ∉ ms
  /-- it has sent all it owes -/
  sent : p.io.accepted = (feed process .start p.io.delivered).2
  /-- as long as it runs it waits for input -/
  waits : p.exit = none → (feed process .start p.io.delivered).1.receives = true ∧
    Message.notification .exit ∉ p.io.delivered ∧
    (∀ stop, ¬ Spec.Input w p.io.delivered stop) ∧
    ∀ bs ms rest, w.arrived = bs ++ rest → Spec.Carries bs ms → ms <+: p.io.delivered
  /-- otherwise it has run to its end, or found the input over -/
  over : ∀ b, p.exit = some b →
    ((∃ r, (feed process .start p.io.delivered).1 = .ended r ∧ p.app = .ended r) ∨
     ((feed process .start p.io.delivered).1.receives = true ∧
      p.app = onRecv process (feed process .start p.io.delivered).1 none ∧
      (Message.notification .exit ∈ p.io.delivered ∨ ∃ stop, Spec.Input w p.io.delivered stop))) ∧
    (b = true ↔ p.app = .ended (.ok ()) ∧
      (Message.notification .exit ∈ p.io.delivered ∨ Spec.Input w p.io.delivered .eof))

theorem final {p : Proc} {as : List Session.Act} (h : Session.Steps k process {} as p)
    (hw : Session.Act.writeFails ∉ as) (ht : Session.Act.timeout ∉ as) (hq : Quiet k process p)
    {bytes : Bytes} {ends : Option Bool} (hf : Spec.Fed p bytes ends) : Final process (Spec.stream bytes ends) p := by
  have hr := proc_reachable h
  have hat := (mainInv h).at' (no_fail h hw)
  have hrest := C71_nothing_pending h hw hq
  have hsettled : (∃ b, p.exit = some b ∧ ∃ r, p.app = .ended r) ∨ (p.exit = none ∧ p.app.receives = true) := by
    cases hex : p.exit with
    | some b => obtain ⟨_, r, h1, _⟩ := (mainInv h).exits b hex; exact .inl ⟨b, rfl, r, h1⟩
    | none =>
      rcases hrest with ⟨b, h1⟩ | ⟨h1, _⟩
      · rw [hex] at h1; cases h1
      · exact .inr ⟨rfl, h1⟩
  have hts : toSend p.app = none := by
    rcases hsettled with ⟨_, _, r, h1⟩ | ⟨_, h1⟩
    · rw [h1]; rfl
    · exact receives_toSend h1
  refine ⟨fun b => ?_, fun ms m hm => ⟨was_waiting h hw ms m hm, fun hx => ?_⟩, ?_, ?_, ?_⟩
  · simpa [Spec.stream] using fed_prefix hf hr [] b
  · obtain ⟨_, ⟨ms', h1, h2⟩, _⟩ := C52_exit hr (hm.subset (List.mem_append_left _ hx))
    rw [h1] at hm
    rcases List.prefix_concat_iff.1 hm with h7 | h7
    · rw [(List.append_inj' h7 rfl).1] at hx; exact h2 hx
    · exact h2 (h7.subset (List.mem_append_left _ hx))
  · cases hat with
    | rest _ h1 => exact h1
    | sending h1 _ _ => rw [hts] at h1; cases h1
    | closed _ _ _ _ h1 => exact h1
    | late _ _ h1 _ => exact absurd h1 ht
  · intro hex
    have hfed : p.io.arrived = bytes ∧ p.io.inEnd = ends := by
      rcases hf with h1 | ⟨h1, _⟩
      · exact h1
      · exact absurd hex h1
    obtain ⟨rfl, rfl⟩ := hfed
    have hrec : p.app.receives = true := by
      rcases hsettled with ⟨b, h1, _⟩ | ⟨_, h1⟩
      · rw [hex] at h1; cases h1
      · exact h1
    have hopen : p.io.reader.ended = false := by
      cases h1 : p.io.reader.ended with
      | false => rfl
      | true => rcases hq _ _ (.closed hex hrec h1) with h | h <;> cases h
    have happ : p.app = (feed process .start p.io.delivered).1 := by
      cases hat with
      | rest h1 _ => exact h1
      | sending h1 _ _ => rw [hts] at h1; cases h1
      | closed _ _ h1 _ _ => rw [hopen] at h1; cases h1
      | late _ _ h1 _ => exact absurd h1 ht
    refine ⟨happ ▸ hrec, fun hx => ?_, fun stop hi => ?_, ?_⟩
    · rw [(C52_exit hr hx).1] at hopen; cases hopen
    · have hrd : p.io.reader = .reading := by
        cases h1 : p.io.reader with
        | reading => rfl
        | sending m =>
          have hrx : p.io.rxAlive = true := by
            cases h3 : p.io.rxAlive with
            | true => rfl
            | false => obtain ⟨r, h4⟩ := (mainInv h).gone (.inl h3); rw [h4] at hrec; cases hrec
          rcases hq _ _ (.recv hex hrec (.deliver _ m h1 hrx)) with h | h <;> cases h
        | _ => rw [h1] at hopen; cases hopen
      obtain ⟨⟨s', h1⟩, _⟩ := C55_ends hr hrd (stop := stop) (input_same hi rfl rfl)
      rcases hq _ _ (.io hex h1 rfl) with h | h <;> cases h
    · rcases hrest with ⟨b, h1⟩ | ⟨_, _, h1, _⟩
      · rw [hex] at h1; cases h1
      · exact h1
  · intro b hex
    obtain ⟨_, r, happ, hb⟩ := (mainInv h).exits b hex
    constructor
    · cases hat with
      | rest h1 _ => exact .inl ⟨r, h1 ▸ happ, happ⟩
      | sending h1 _ _ => rw [hts] at h1; cases h1
      | closed h1 h2 _ h3 _ =>
        refine .inr ⟨h1, h2, ?_⟩
        rcases h3 with h3 | ⟨stop, h3⟩
        · exact .inl h3
        · exact .inr ⟨stop, fed_input hf h3⟩
      | late _ _ h1 _ => exact absurd h1 ht
    · constructor
      · rintro rfl
        rcases hb with ⟨_, h1⟩ | ⟨h1, _, h2⟩
        · cases h1
        · subst h1
          refine ⟨happ, ?_⟩
          rcases (C58_ok hr (of_decide_eq_true h2.symm)).2.2.2.2 with ⟨ms, h3⟩ | ⟨h3, h4⟩
          · exact .inl (by simp [h3])
          · exact .inr (fed_input hf (by simp only [Spec.Input, h3]; exact h4))
      · rintro ⟨h1, h2⟩
        rw [happ] at h1
        injection h1 with h1
        subst h1
        rcases hb with ⟨h1, _⟩ | ⟨_, hj, h1⟩
        · exact absurd rfl h1
        · have hended : p.io.reader.ended = true := by
            cases hrd : p.io.reader with
            | reading => exact absurd (by unfold join; rw [hrd]) hj
            | sending m => exact absurd (by unfold join; rw [hrd]) hj
            | _ => rfl
          have hdone : p.io.reader = .done := by
            rcases h2 with h2 | h2
            · exact (C52_exit hr h2).1
            · cases hrd : p.io.reader with
              | done => rfl
              | reading => rw [hrd] at hended; cases hended
              | sending m => rw [hrd] at hended; cases hended
              | failed =>
                obtain ⟨_, stop, h4, h5⟩ := C55_error hr hrd
                rw [← (input_unique h2 (fed_input hf h5)).2] at h4
                cases h4
              | panicked =>
                exfalso
                rcases C55_panic hr hrd with ⟨_, m, used, h4, h5⟩ | ⟨_, stop, h4, h5⟩ | h5
                · obtain ⟨b, h6, _⟩ := input_readAll h2
                  have h7 : ∃ t, bytes = used ++ t := by
                    rcases hf with ⟨rfl, _⟩ | ⟨_, ⟨t, rfl⟩, _⟩
                    · exact ⟨_, h4⟩
                    · exact ⟨p.io.unread ++ t, by rw [h4]; simp⟩
                  obtain ⟨t, h7⟩ := h7
                  simp only [Spec.stream, h7, readAll_carries h5] at h6
                  have := congrArg (·.1.length) h6
                  simp at this
                · rw [← (input_unique h2 (fed_input hf h5)).2] at h4
                  cases h4
                · cases (input_unique h2 (fed_input hf h5)).2
          have hwd : p.io.writer = .done := by
            have hne := no_fail h hw
            have hwi := writeInv hr
            unfold join at hj
            rw [hdone] at hj
            cases hwr : p.io.writer with
            | idle => simp [hwr] at hj
            | writing rest => simp [hwr] at hj
            | done => rfl
            | failed => simp only [WriteInv, hwr] at hwi; rw [hwr, hwi.1] at hne; exact absurd rfl hne
            | panicked => simp only [WriteInv, hwr] at hwi; rw [hwr, hwi.1] at hne; exact absurd rfl hne
          rw [h1, C58_ok_iff.2 ⟨hdone, hwd⟩]
          rfl

theorem final_delivered {w : State} {p q : Proc} (hp : Final process w p) (hq : Final process w q) :
    q.io.delivered <+: p.io.delivered := by
  apply Classical.byContradiction
  intro hn
  have hd : ∃ m, p.io.delivered ++ [m] <+: q.io.delivered := by
    rcases List.prefix_or_prefix_of_prefix (hp.got false) (hq.got false) with ⟨t, h⟩ | h
    · cases t with
      | nil => rw [List.append_nil] at h; exact absurd (by rw [h]; exact List.prefix_rfl) hn
      | cons m t => exact ⟨m, t, by rw [← h]; simp⟩
    · exact absurd h hn
  obtain ⟨m, hm⟩ := hd
  obtain ⟨h1, h2⟩ := hq.ready _ _ hm
  cases hex : p.exit with
  | some b =>
    rcases (hp.over b hex).1 with ⟨r, h3, _⟩ | ⟨_, _, h3 | ⟨stop, h3⟩⟩
    · rw [h3] at h1; cases h1
    · exact h2 h3
    · obtain ⟨b, h4, _⟩ := input_readAll h3
      have := hq.got b
      rw [h4] at this
      exact hn this
  | none =>
    obtain ⟨_, _, _, h3⟩ := hp.waits hex
    obtain ⟨bs, rest, h4, h5⟩ := readAll_carried _ w.arrived false (Nat.le_refl _) [] [] .nil
    simp only [List.nil_append] at h5
    exact hn ((hq.got false).trans (h3 _ _ _ h4 h5))

theorem final_exit {w : State} {p q : Proc} (hp : Final process w p) (hq : Final process w q)
    (he : p.io.delivered = q.io.delivered) (b : Bool) (hex : p.exit = some b) : q.exit = some b := by
  cases hex' : q.exit with
  | none =>
    exfalso
    obtain ⟨h1, h2, h3, _⟩ := hq.waits hex'
    rcases (hp.over b hex).1 with ⟨r, h4, _⟩ | ⟨_, _, h4 | ⟨stop, h4⟩⟩
    · rw [he] at h4; rw [h4] at h1; cases h1
    · exact h2 (he ▸ h4)
    · exact h3 stop (he ▸ h4)
  | some c =>
    obtain ⟨h1, h2⟩ := hp.over b hex
    obtain ⟨h3, h4⟩ := hq.over c hex'
    have happ : p.app = q.app := by
      rw [he] at h1
      rcases h1 with ⟨r, h5, h6⟩ | ⟨h5, h6, _⟩
      · rcases h3 with ⟨r', h7, h8⟩ | ⟨h7, _⟩
        · rw [h6, h8, ← h5, ← h7]
        · rw [h5] at h7; cases h7
      · rcases h3 with ⟨r', h7, h8⟩ | ⟨_, h8, _⟩
        · rw [h7] at h5; cases h5
        · rw [h6, h8]
    rw [happ, he, ← h4] at h2
    congr 1
    cases b <;> cases c <;> simp_all

/-- C80: two processes with the same handler that are given the same input, one perhaps over stdio and the other over
a socket, in whatever pieces and with whatever schedules, end up the same, as long as no write fails and the exit
notification is not late: both are still waiting, or both have exited with the same status; they have received and sent
the same messages; and unless they have exited with an error they have written the same bytes. -/
theorem C80_deterministic {k1 k2 : Kind} {p q : Proc} {as1 as2 : List Session.Act}
    (h1 : Session.Steps k1 process {} as1 p) (hw1 : Session.Act.writeFails ∉ as1)
    (ht1 : Session.Act.timeout ∉ as1) (hq1 : Quiet k1 process p)
    (h2 : Session.Steps k2 process {} as2 q) (hw2 : Session.Act.writeFails ∉ as2)
    (ht2 : Session.Act.timeout ∉ as2) (hq2 : Quiet k2 process q)
    {bytes : Bytes} {ends : Option Bool} (hf1 : Spec.Fed p bytes ends) (hf2 : Spec.Fed q bytes ends) :
    p.exit = q.exit ∧ p.io.delivered = q.io.delivered ∧ p.io.accepted = q.io.accepted ∧
    (p.exit ≠ some false → p.io.out = q.io.out) := by
  have f1 := final h1 hw1 ht1 hq1 hf1
  have f2 := final h2 hw2 ht2 hq2 hf2
  have hd : p.io.delivered = q.io.delivered :=
    (final_delivered f2 f1).eq_of_length_le (final_delivered f1 f2).length_le
  have he : p.exit = q.exit := by
    cases hp : p.exit with
    | some b => exact (final_exit f1 f2 hd b hp).symm
    | none =>
      cases hq : q.exit with
      | none => rfl
      | some b => rw [final_exit f2 f1 hd.symm b hq] at hp; cases hp
  have ha : p.io.accepted = q.io.accepted := by rw [f1.sent, f2.sent, hd]
  refine ⟨he, hd, ha, fun hx => ?_⟩
  rw [C76_partial h1 hw1 hq1 hx, C76_partial h2 hw2 hq2 (he ▸ hx), ha]

/-- C80: and for every input there is such an end. -/
theorem C80_exists (k : Kind) (process : InitializeBuild → Option Value) (bytes : Bytes) (ends : Option Bool) :
    ∃ as p, Session.Steps k process {} as p ∧ Session.Act.writeFails ∉ as ∧ Session.Act.timeout ∉ as ∧
      Quiet k process p ∧ Spec.Fed p bytes ends := by
  have h0 : ∃ as0, Session.Steps k process {} as0 { io := { arrived := bytes, unread := bytes, inEnd := ends } } ∧
      ∀ a ∈ as0, a = .peer := by
    have h1 : Session.Steps k process {} [.peer] { io := { arrived := bytes, unread := bytes } } :=
      steps_cons (.io rfl (.arrive _ bytes rfl) rfl) (.nil _)
    cases ends with
    | none => exact ⟨_, h1, by simp⟩
    | some b => exact ⟨_, .snoc h1 (.io rfl (.hangUp _ b rfl) rfl), by simp⟩
  obtain ⟨as0, h0, h00⟩ := h0
  obtain ⟨as, q, h1, h2, h3⟩ := C72_settles k process { io := { arrived := bytes, unread := bytes, inEnd := ends } }
  obtain ⟨h4, h5⟩ := steps_arrived h1 (fun h => (h3 _ h).1 rfl)
  refine ⟨_, q, steps_append h0 h1, ?_, ?_, h2, .inl ⟨h4, h5⟩⟩ <;>
  · intro h
    rcases List.mem_append.1 h with h | h
    · cases h00 _ h
    · first | exact (h3 _ h).2.2 rfl | exact (h3 _ h).2.1 rfl

/-! ### Late exit notifications and failing writes -/

/-- A main thread that has ended stays so. -/
theorem stays_ended {p q : Proc} {a : Session.Act} {r : Out Unit} (h : Session.Step k process p a q)
    (hp : p.app = .ended r) : q.app = .ended r := by
  cases h with
  | io _ _ _ => exact hp
  | recv _ h2 _ => rw [hp] at h2; cases h2
  | closed _ h2 _ => rw [hp] at h2; cases h2
  | send _ h2 _ => rw [hp] at h2; cases h2
  | unsent _ h2 _ => rw [hp] at h2; cases h2
  | timeout _ h2 => rw [hp] at h2; cases h2
  | _ => exact hp

/-- A main thread that has ended well has seen the end of the reader. -/
theorem ok_reader {p : Proc} {as : List Session.Act} (h : Session.Steps k process {} as p)
    (he : p.app = .ended (.ok ())) : p.io.reader.ended = true := by
  have key : ∀ {p0 as p}, Session.Steps k process p0 as p → p0 = ({} : Proc) → p.app = .ended (.ok ()) →
      p.io.reader.ended = true := by
    intro p0 as p h
    induction h with
    | nil => intro e he; subst e; cases he
    | @snoc as q a r h1 h2 ih =>
      intro e
      subst e
      have ih := ih rfl
      cases h2 with
      | io _ h3 h4 => exact fun he => (io_same h3 h4).2.2.2.2.1 (ih he)
      | @recv m _ h2 h3 h4 =>
        cases h4 with
        | deliver _ hr hx =>
          intro he
          have : m = .notification .exit := by
            simp only at he
            cases happ : q.app <;> simp [happ, App.receives] at h3 <;> rw [happ] at he <;>
              simp only [onRecv] at he <;> split at he <;> simp_all
            split at he <;> simp_all
          subst this
          rfl
      | closed _ _ h4 => exact fun _ => h4
      | @send m _ h2 h3 h4 =>
        cases h4 with
        | accept _ _ _ =>
          intro he
          simp only at he
          cases happ : q.app <;> simp [happ, toSend] at h3 <;> rw [happ] at he <;> simp [onSent] at he
      | unsent h2 h3 h4 =>
        intro he
        simp only at he
        cases happ : q.app <;> simp [happ, toSend] at h3 <;> rw [happ] at he <;> simp [onSent] at he
      | timeout _ _ => intro he; simp at he
      | _ => exact ih
  exact key h rfl he

/-- A process that can go no further has exited or waits on an open input. -/
theorem rests_or_exited {p : Proc} {as : List Session.Act} (h : Session.Steps k process {} as p)
    (hq : Quiet k process p) : (∃ b, p.exit = some b) ∨ (p.app.receives = true ∧ p.io.inEnd = none) := by
  have hr := proc_reachable h
  cases hex : p.exit with
  | some b => exact .inl ⟨b, rfl⟩
  | none =>
  right
  have no_thread : ∀ {a s'}, Transport.Step k p.io a s' → kindOf a = some .thread → False := by
    intro a s' h1 h2
    rcases hq _ _ (.io hex h1 h2) with h | h <;> cases h
  have hwr : p.io.writer = .idle ∨ p.io.writer.ended = true := by
    cases hwr : p.io.writer with
    | writing rest =>
      obtain ⟨a, s', h1, h2⟩ := writer_moves (k := k) hwr
      exact (no_thread h1 h2).elim
    | idle => exact .inl rfl
    | _ => exact .inr rfl
  have hg := (mainInv h).gone
  cases ht : toSend p.app with
  | some m =>
    exfalso
    have htx : p.io.txAlive = true := by
      cases h1 : p.io.txAlive with
      | true => rfl
      | false => obtain ⟨r, h⟩ := hg (.inr h1); rw [h] at ht; cases ht
    rcases hwr with h1 | h1
    · rcases hq _ _ (.send hex ht (.accept _ m h1 htx)) with h | h <;> cases h
    · rcases hq _ _ (.unsent hex ht h1) with h | h <;> cases h
  | none =>
  rcases rests ht with hrec | ⟨r, hend⟩
  · have hrx : p.io.rxAlive = true := by
      cases h1 : p.io.rxAlive with
      | true => rfl
      | false => obtain ⟨r, h⟩ := hg (.inl h1); rw [h] at hrec; cases hrec
    refine ⟨hrec, ?_⟩
    cases he : p.io.inEnd with
    | none => rfl
    | some b =>
      exfalso
      cases hrd : p.io.reader with
      | reading =>
        obtain ⟨s', h1⟩ := C78_ended (k := k) hrd (by simp [he])
        exact no_thread h1 rfl
      | sending m => rcases hq _ _ (.recv hex hrec (.deliver _ m hrd hrx)) with h | h <;> cases h
      | _ => rcases hq _ _ (.closed hex hrec (by rw [hrd]; rfl)) with h | h <;> cases h
  · exfalso
    have hrx : p.io.rxAlive = false := by
      cases h1 : p.io.rxAlive with
      | false => rfl
      | true => rcases hq _ _ (.dropRx hex hend h1) with h | h <;> cases h
    have htx : p.io.txAlive = false := by
      cases h1 : p.io.txAlive with
      | false => rfl
      | true => rcases hq _ _ (.dropTx hex hend h1) with h | h <;> cases h
    have hwd : p.io.writer.ended = true := by
      rcases hwr with h1 | h1
      · exact (no_thread (.close _ h1 htx) rfl).elim
      · exact h1
    by_cases hok : r = .ok ()
    · subst hok
      have hrd := ok_reader h hend
      have hj : join k p.io ≠ .waiting := by
        unfold join
        cases hrd' : p.io.reader with
        | reading => rw [hrd'] at hrd; cases hrd
        | sending m => rw [hrd'] at hrd; cases hrd
        | done => cases hw' : p.io.writer <;> simp [hw', Writer.ended] at hwd ⊢
        | failed => simp
        | panicked => simp [hwd]
      rcases hq _ _ (.finish hex hend hrx htx hj) with h | h <;> cases h
    · rcases hq _ _ (.abort hex hend hok hrx htx) with h | h <;> cases h

/-- C81: after a session and the shutdown request, the process at rest has answered everything and waits for the exit
notification. -/
theorem C81_waits {p : Proc} {as : List Session.Act} (h : Session.Steps k process {} as p)
    (hw : Session.Act.writeFails ∉ as) (ht : Session.Act.timeout ∉ as) (hq : Quiet k process p)
    {early : List Request} {id sid : RequestId} {ip : InitializeBuild} {v : Value} {pre : List Message}
    (hi : p.io.inEnd = none)
    (hc : Spec.Carries p.io.arrived (Spec.session early id ip pre ++ [.request (.shutdown sid)]))
    (he : ∀ r ∈ early, Spec.Early r) (hv : process ip = some v) (hn : Spec.NoShutdown pre)
    (hx : Message.notification .exit ∉ pre) :
    p.exit = none ∧ p.app = .leaving ∧
    ∃ ms, Spec.Served early id v (Spec.requests pre) ms ∧
      p.io.out = (ms ++ [Message.response ⟨sid, some Value.null, none⟩]).flatMap Frame.write := by
  have hfs := feed_session (id := id) he hv hn
  have r1 : round process .idle (.request (.shutdown sid)) = (.leaving, [.response ⟨sid, some Value.null, none⟩]) := rfl
  have hfx : feed process .start (Spec.session early id ip pre ++ [.request (.shutdown sid)]) =
      (.leaving, early.map refusal ++ [.response ⟨id, some v, none⟩] ++ (Spec.requests pre).map reply ++
        [.response ⟨sid, some Value.null, none⟩]) := by
    rw [feed_append, hfs]; simp [feed, r1]
  have hsx : Message.notification .exit ∉ Spec.session early id ip pre ++ [.request (.shutdown sid)] := by
    simp [Spec.session, hx]
  have f := final h hw ht hq (.inl ⟨rfl, rfl⟩)
  have hra : ∀ b, Frame.readAll (⟨p.io.arrived, b⟩ : Frame.Flat) =
      (Spec.session early id ip pre ++ [.request (.shutdown sid)], if b then .ioError else .eof) := by
    intro b
    have h1 := readAll_carries hc [] b
    rw [List.append_nil] at h1
    rw [h1, readAll_eq]
    cases b <;> simp [readMsg_nil.1, readMsg_nil.2]
  have hd : p.io.delivered <+: Spec.session early id ip pre ++ [.request (.shutdown sid)] := by
    have h1 := f.got false
    simp only [Spec.stream, hra] at h1
    exact h1
  have hex : p.exit = none := by
    cases hex : p.exit with
    | none => rfl
    | some b =>
      exfalso
      rcases (f.over b hex).1 with ⟨r, h1, _⟩ | ⟨_, _, h1 | ⟨stop, h1⟩⟩
      · exact feed_alive hd (by rw [hfx]; simp) r h1
      · exact hsx (hd.subset h1)
      · simp only [Spec.Input, Spec.stream, hi] at h1
        have h4 := h1 [] false
        have h5 := h1 [] true
        rw [List.append_nil, hra] at h4 h5
        have := (congrArg (·.2) h4).trans (congrArg (·.2) h5).symm
        simp at this
  have hall := hd.eq_of_length_le ((f.waits hex).2.2.2 _ _ [] (by simp [Spec.stream]) hc).length_le
  refine ⟨hex, ?_, _, ⟨_, _, rfl, refusals _, replies _⟩, ?_⟩
  · rcases rests_or_exited h hq with ⟨b, h1⟩ | ⟨h1, _⟩
    · rw [hex] at h1; cases h1
    · cases (mainInv h).at' (no_fail h hw) with
      | rest h2 _ => rw [h2, hall, hfx]
      | sending h2 _ _ => rw [receives_toSend h1] at h2; cases h2
      | closed h2 h3 _ _ _ =>
        obtain ⟨r, h4⟩ := onRecv_none (process := process) h2
        rw [h3, h4] at h1; cases h1
      | late _ h2 _ _ => rw [h2] at h1; cases h1
  · rw [C76_partial h hw hq (by simp [hex]), f.sent, hall, hfx]

/-- C81: if the exit notification has not come within the time limit the process does not exit with success; once it
can go no further it has exited with an error. -/
theorem C81_late {p : Proc} {as : List Session.Act} (h : Session.Steps k process {} as p)
    (ht : Session.Act.timeout ∈ as) : p.exit ≠ some true ∧ (Quiet k process p → p.exit = some false) := by
  have key : ∀ {p0 as p}, Session.Steps k process p0 as p → Session.Act.timeout ∈ as →
      ∃ e, p.app = .ended (.err e) := by
    intro p0 as p h
    induction h with
    | nil => intro h; cases h
    | @snoc as q a r h1 h2 ih =>
      intro h
      rcases List.mem_append.1 h with h | h
      · obtain ⟨e, h3⟩ := ih h
        exact ⟨e, stays_ended h2 h3⟩
      · simp only [List.mem_singleton] at h
        subst h
        cases h2 with
        | timeout _ _ => exact ⟨_, rfl⟩
        | io _ hs hk => cases hs <;> simp [kindOf] at hk
  obtain ⟨e, he⟩ := key h ht
  have hne : p.exit ≠ some true := by
    intro hx
    obtain ⟨_, r, h1, h2⟩ := (mainInv h).exits true hx
    rw [he] at h1
    injection h1 with h1
    subst h1
    rcases h2 with ⟨_, h2⟩ | ⟨h2, _⟩ <;> cases h2
  refine ⟨hne, fun hq => ?_⟩
  rcases rests_or_exited h hq with ⟨b, h1⟩ | ⟨h1, _⟩
  · cases b with
    | true => exact absurd h1 hne
    | false => exact h1
  · rw [he] at h1; cases h1

/-- C82: if a write has failed the process does not exit with success; once it can go no further it has exited with an
error or is waiting for input on a connection that is still open. -/
theorem C82_write_fails {p : Proc} {as : List Session.Act} (h : Session.Steps k process {} as p)
    (hw : Session.Act.writeFails ∈ as) :
    p.exit ≠ some true ∧ (Quiet k process p → p.exit = some false ∨ (p.exit = none ∧ p.io.inEnd = none)) := by
  have key : ∀ {p0 as p}, Session.Steps k process p0 as p → Session.Act.writeFails ∈ as →
      p.io.writer = writeError k := by
    intro p0 as p h
    induction h with
    | nil => intro h; cases h
    | @snoc as q a r h1 h2 ih =>
      intro h
      rcases List.mem_append.1 h with h | h
      · have ih := ih h
        cases h2 with
        | io _ hs hk => exact (io_same hs hk).2.2.2.2.2.1 ih
        | recv _ _ hs => cases hs with | deliver _ _ _ => exact ih
        | send _ _ hs =>
          cases hs with
          | accept _ hi _ => rw [hi] at ih; cases k <;> cases ih
        | _ => exact ih
      · simp only [List.mem_singleton] at h
        subst h
        cases h2 with
        | io _ hs hk =>
          cases hs with
          | writeFails _ _ => rfl
          | _ => simp [kindOf] at hk
  have he := key h hw
  have hne : p.exit ≠ some true := by
    intro hx
    obtain ⟨_, r, h1, h2⟩ := (mainInv h).exits true hx
    rcases h2 with ⟨_, h2⟩ | ⟨_, _, h2⟩
    · cases h2
    · have := (C58_ok_iff.1 (of_decide_eq_true h2.symm)).2
      rw [this] at he
      cases k <;> cases he
  refine ⟨hne, fun hq => ?_⟩
  rcases rests_or_exited h hq with ⟨b, h1⟩ | ⟨h1, h2⟩
  · cases b with
    | true => exact absurd h1 hne
    | false => exact .inl h1
  · right
    cases hx : p.exit with
    | none => exact ⟨rfl, h2⟩
    | some b => obtain ⟨_, r, h3, _⟩ := (mainInv h).exits b hx; rw [h3] at h1; cases h1

end

/-! ### Concrete cases -/

section
attribute [local instance] Ext.sample FloatText.sample Dbg.sample

/-- Beside C80: the whole sample conversation over stdio and over a socket; both exit with success. -/
example : ∃ as1 p as2 q, Session.Steps .stdio sampleHandler {} as1 p ∧ Session.Steps .socket sampleHandler {} as2 q ∧
    p.exit = some true ∧ q.exit = some true ∧ p.io.out = q.io.out := by
  obtain ⟨as1, p, h1, h2, h3, h4, h5⟩ := C80_exists .stdio sampleHandler (framed (sampleTalk ++ sampleLeave)) none
  obtain ⟨as2, q, g1, g2, g3, g4, g5⟩ := C80_exists .socket sampleHandler (framed (sampleTalk ++ sampleLeave)) none
  obtain ⟨h6, _, _, h7⟩ := C80_deterministic h1 h2 h3 h4 g1 g2 g3 g4 h5 g5
  obtain ⟨as3, r, e1, e2, e3, e4, e5, e6⟩ := settle .stdio sampleHandler (framed (sampleTalk ++ sampleLeave))
  obtain ⟨h8, _, _, _⟩ := C80_deterministic h1 h2 h3 h4 e1 e2 e3 e4 h5 (.inl ⟨e5, e6⟩)
  have h9 : r.exit = some true := (C73_session (id := .i32 1) (sid := .i32 3) (ip := sampleInit)
    (v := .ofJson (.str "c")) (early := [.workspaceReload (.str "a")])
    (pre := [.request (.workspaceBuildTargets (.i32 2)), .notification .initialized]) (rest := []) e1 e2 e3 e4
    (by rw [e5]; simp) sampleTalk_carries.2 (by simp [Spec.Early]) rfl (by simp [Spec.NoShutdown]) (by simp)).1
  have h10 := h8.trans h9
  exact ⟨as1, p, as2, q, h1, g1, h10, h6 ▸ h10, h7 (by rw [h10]; simp)⟩

/-- Beside C81: the sample conversation and the shutdown request, answered; then the time limit passes. -/
example (k : Kind) : ∃ as p, Session.Steps k sampleHandler {} as p ∧ Session.Act.timeout ∈ as ∧ p.exit ≠ some true := by
  obtain ⟨as, p, h1, h2, h3, h4, h5, h6⟩ := settle k sampleHandler (framed (sampleTalk ++ [sampleLeave[0]]))
  obtain ⟨h7, h8, _⟩ := C81_waits (id := .i32 1) (sid := .i32 3) (ip := sampleInit)
    (v := .ofJson (.str "c")) (early := [.workspaceReload (.str "a")])
    (pre := [.request (.workspaceBuildTargets (.i32 2)), .notification .initialized]) h1 h2 h3 h4 h6
    (by rw [h5]; exact carries_framed fun x hx => sampleTalk_ok x (by simp [sampleTalk, sampleLeave] at hx ⊢; grind))
    (by simp [Spec.Early]) rfl (by simp [Spec.NoShutdown]) (by simp)
  have h9 := Session.Steps.snoc h1 (.timeout h7 h8)
  exact ⟨_, _, h9, by simp, (C81_late h9 (by simp)).1⟩

/-- Beside C82: a refusal is sent, and the write fails. -/
example (k : Kind) : ∃ as p, Session.Steps k sampleHandler {} as p ∧ Session.Act.writeFails ∈ as ∧
    p.exit ≠ some true := by
  have hc : Spec.Carries (framed [sampleTalk[0], sampleTalk[1]]) [sampleTalk[0].2, sampleTalk[1].2] :=
    carries_framed fun x hx => sampleTalk_ok x (by simp [sampleTalk, sampleLeave] at hx ⊢; grind)
  obtain ⟨f1, f2, _, hr, _⟩ := carries_two (k := k) hc
  have s1 := step_arrive k sampleHandler (f1 ++ f2)
  have s2 := Session.Steps.snoc s1 (.io rfl (hr _ rfl f2 rfl) rfl)
  have s3 := Session.Steps.snoc s2 (.recv rfl rfl (.deliver _ _ rfl rfl))
  have s4 := Session.Steps.snoc s3 (.send rfl rfl (.accept _ _ rfl rfl))
  have s5 := Session.Steps.snoc s4 (.io rfl (.writeFails _ _ rfl) rfl)
  exact ⟨_, _, s5, by simp, (C82_write_fails s5 (by simp)).1⟩

end
end Bsp
