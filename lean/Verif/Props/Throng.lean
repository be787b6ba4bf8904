/-
C134: a server that starts a thread for each request, on a connection on which requests come in for ever.
-/
import Verif.Throng
import Verif.Props.Endless

namespace Bsp
open Conn Session Transport Frame
open Crew (Job)

section
variable [Ext] [Dbg] [FloatText] {k : Kind} {work : Request → List Message → Prop}

/-- Of a run: the connection works, and nobody asks to shut down. -/
structure Spec.Calmly (k : Kind) (io : Transport.State) (s : Nat → Crew.State) : Prop where
  writes : ∀ m, (s m).io.writer ≠ writeError k
  stays : ∀ m, Spec.NoShutdown ((s m).io.delivered.drop io.delivered.length)

/-! ### Of connections -/

omit [Dbg] in
/-- A writer that gets its turn gets done with every message. -/
theorem io_writer_done {t : Nat → Transport.State} (next : ∀ i, t (i + 1) = t i ∨ ∃ a, Transport.Step k (t i) a (t (i + 1)))
    (fair : ∀ n, (∀ m, n ≤ m → ∃ act io', (act = .written ∨ ∃ bs, act = .write bs) ∧ Transport.Step k (t m) act io') →
      ∃ m, n ≤ m ∧ ∃ act, (act = .written ∨ ∃ bs, act = .write bs) ∧ Transport.Step k (t m) act (t (m + 1))) (n : Nat) :
    ∃ m, n ≤ m ∧ ∀ r, (t m).writer ≠ .writing r := by
  suffices key : ∀ L n r, (t n).writer = .writing r → r.length < L → ∃ m, n ≤ m ∧ ∀ r, (t m).writer ≠ .writing r by
    by_cases hn : ∃ r, (t n).writer = .writing r
    · obtain ⟨r, hr⟩ := hn
      exact key _ n r hr (Nat.lt_succ_self _)
    · exact ⟨n, Nat.le_refl _, fun r hr => hn ⟨r, hr⟩⟩
  intro L
  induction L with
  | zero => intro n r hr hl; omega
  | succ L ih =>
    intro n r hr hl
    apply Classical.byContradiction
    intro hno
    have hall : ∀ m, n ≤ m → ∃ r', (t m).writer = .writing r' ∧ r'.length ≤ L := by
      intro m hm
      induction hm with
      | refl => exact ⟨r, hr, by omega⟩
      | @step m hm ih =>
        obtain ⟨r0, i1, i2⟩ := ih
        rcases next m with h2 | ⟨a, h3⟩
        · rw [Nat.succ_eq_add_one, h2]; exact ⟨r0, i1, i2⟩
        · rcases writing_step h3 i1 with ⟨r', h4, h5⟩ | h4
          · exact ⟨r', h4, by omega⟩
          · exact absurd ⟨m + 1, Nat.le_succ_of_le hm, h4⟩ hno
    obtain ⟨m, hm, act, ha, h1⟩ := fair n fun m hm => by
      obtain ⟨r', h1, _⟩ := hall m hm
      cases r' with
      | nil => exact ⟨.written, _, .inl rfl, .written _ h1⟩
      | cons x r' => exact ⟨.write [x], _, .inr ⟨_, rfl⟩, .write _ [x] r' h1 (by simp)⟩
    obtain ⟨r1, h3, h4⟩ := hall m hm
    generalize he : t (m + 1) = q at h1
    rcases ha with rfl | ⟨bs, rfl⟩
    · refine hno ⟨m + 1, by omega, ?_⟩
      rw [he]; cases h1; simp
    · cases h1 with
      | write a b h5 h6 =>
        rw [h3] at h5
        simp only [Writer.writing.injEq] at h5
        have : 0 < bs.length := List.length_pos_iff.2 h6
        subst h5
        obtain ⟨m', h7, h8⟩ := ih (m + 1) b (by rw [he]) (by simp at h4; omega)
        exact hno ⟨m', by omega, h8⟩

omit [Dbg] in
/-- What has been carried has been received, or is still to be received. -/
theorem io_heard {c : Transport.State} (hr : Reachable k c) {bs : Bytes} {ms : List Message} {rest : Bytes}
    (ha : c.arrived = bs ++ rest) (hc : Spec.Carries bs ms) (n1 : ¬ ms <+: c.delivered)
    (n2 : Message.notification .exit ∉ c.delivered) :
    ¬ Over c ∧ c.delivered.length < ms.length ∧ (c.reader = .reading → ∃ io', Transport.Step k c .read io') := by
  refine ⟨?_, ?_, ?_⟩
  · rintro (h1 | ⟨stop, h1⟩)
    · exact n2 h1
    · refine n1 ?_
      unfold Spec.Input at h1
      cases he : c.inEnd with
      | some b =>
        simp only [he] at h1
        rw [ha, readAll_carries hc] at h1
        exact (Prod.mk.inj h1).1 ▸ List.prefix_append _ _
      | none =>
        simp only [he] at h1
        have h2 := h1 [] false
        rw [ha, List.append_nil, readAll_carries hc] at h2
        exact (Prod.mk.inj h2).1 ▸ List.prefix_append _ _
  · obtain ⟨⟨used, ps, hu', _, hc'⟩, _, _⟩ := (readInv hr).1
    have e1 := readAll_carries hc rest false
    have e2 := readAll_carries hc' c.unread false
    rw [← ha, hu', e2] at e1
    have e3 := (Prod.mk.inj e1).1
    apply Classical.byContradiction
    intro hl
    refine n1 (List.prefix_of_prefix_length_le (l₃ := ms ++ (readAll (⟨rest, false⟩ : Flat)).1) (List.prefix_append _ _) ?_ (by omega))
    rw [← e3, List.append_assoc]
    exact List.prefix_append _ _
  · intro hrd
    apply Classical.byContradiction
    intro hnr
    obtain ⟨⟨used, ps, hu', hp, hc'⟩, _, _⟩ := (readInv hr).1
    simp only [Spec.Pending, hrd] at hp
    subst hp
    rw [List.append_nil] at hc'
    have e1 := readAll_carries hc rest false
    rw [← ha, hu', readAll_carries hc', nothing_whole hrd hnr] at e1
    simp only [List.append_nil, Prod.mk.injEq] at e1
    exact n1 (e1.1 ▸ List.prefix_append _ _)

/-! ### Steps -/

/-- What becomes of a thread. -/
theorem job_step {p q : Crew.State} {a : Pool.Act} {i : Nat} {j : Job} (h : Crew.Step k work p a q)
    (hj : p.jobs[i]? = some j) :
    q.jobs[i]? = some j ∨ Crew.Acts k work (.sends i) p q ∨ (j.left ≠ [] ∧ p.io.writer.ended = true) := by
  cases h with
  | hire _ _ _ _ =>
    refine .inl ?_
    have := (List.getElem?_eq_some_iff.1 hj).1
    simp only [List.getElem?_append_left this]
    exact hj
  | @send io io' main mine l b r s m t z h1 =>
    by_cases hi : i = l.length
    · exact .inr (.inl ⟨l, b, r, s, m, t, z, io', rfl, hi.symm, h1, rfl⟩)
    · exact .inl (by rw [← hj]; exact getElem_other hi)
  | @unsent io main mine l b r s m t z h1 =>
    by_cases hi : i = l.length
    · simp only [hi, getElem_here] at hj; cases hj
      exact .inr (.inr ⟨by simp, h1⟩)
    · exact .inl (by rw [← hj]; exact getElem_other hi)
  | _ => exact .inl hj

/-- The step of a crew as a step of its connection. -/
theorem crew_io {p q : Crew.State} {a : Pool.Act} (h : Crew.Step k work p a q) :
    q.io = p.io ∨ ∃ act, Transport.Step k p.io act q.io := by
  cases h with
  | io h1 => exact .inr ⟨_, h1⟩
  | recv _ h1 => exact .inr ⟨_, h1⟩
  | hire _ h1 => exact .inr ⟨_, h1⟩
  | reply _ h1 => exact .inr ⟨_, h1⟩
  | send h1 => exact .inr ⟨_, h1⟩
  | dropRx => exact .inr ⟨_, .dropRx _⟩
  | dropTx => exact .inr ⟨_, .dropTx _⟩
  | _ => exact .inl rfl

variable {io : Transport.State} {s : Nat → Crew.State}

theorem crew_run (h : Crew.Run k work io s) (n : Nat) : ∃ as, Crew.Steps k work { io := io } as (s n) := by
  induction n with
  | zero => exact ⟨[], h.start ▸ .nil _⟩
  | succ n ih =>
    obtain ⟨as, h1⟩ := ih
    rcases h.next n with h2 | ⟨a, h2⟩
    · exact ⟨as, h2 ▸ h1⟩
    · exact ⟨as ++ [a], .snoc h1 h2⟩

theorem crew_next (h : Crew.Run k work io s) (n : Nat) :
    (s (n + 1)).io = (s n).io ∨ ∃ a, Transport.Step k (s n).io a (s (n + 1)).io := by
  rcases h.next n with h2 | ⟨a, h2⟩
  · exact .inl (by rw [h2])
  · exact crew_io h2

theorem crew_grows (h : Crew.Run k work io s) {n m : Nat} (hm : n ≤ m) :
    (s n).io.delivered <+: (s m).io.delivered ∧ (s n).io.accepted <+: (s m).io.accepted ∧
      (s n).io.arrived <+: (s m).io.arrived := by
  induction hm with
  | refl => exact ⟨List.prefix_refl _, List.prefix_refl _, List.prefix_refl _⟩
  | @step m hm ih =>
    rcases crew_next h m with h3 | ⟨act, h3⟩
    · rw [Nat.succ_eq_add_one, h3]; exact ih
    · obtain ⟨e1, e2, e3⟩ := io_grows h3
      exact ⟨ih.1.trans e1, ih.2.1.trans e2, ih.2.2.trans e3⟩

/-- The writer gets done with every message. -/
theorem crew_writer_done (h : Crew.Run k work io s) (hs : Crew.Scheduled k work s) (n : Nat) :
    ∃ m, n ≤ m ∧ ∀ r, (s m).io.writer ≠ .writing r := by
  refine io_writer_done (k := k) (t := fun n => (s n).io) (crew_next h) ?_ n
  intro n hall
  obtain ⟨m, hm, act, io', h1, h2, h3⟩ := hs .writer n fun m hm => by
    obtain ⟨act, io', h1, h2⟩ := hall m hm
    exact ⟨_, act, io', h1, h2, rfl⟩
  refine ⟨m, hm, act, h1, ?_⟩
  rw [h3]
  exact h2

section
variable (hio : Reachable k io) (hx : io.rxAlive = true) (ht : io.txAlive = true) (h : Crew.Run k work io s)
  (hu : Spec.Calmly k io s)
include hio hx ht h hu

/-- How things stand at any time in a calm run. -/
theorem crew_stand (n : Nat) : ∃ as ds sent, CrewInv k work io as (s n) ds sent ∧
    (s n).jobs.map (·.req) = Spec.requests ds ∧ (s n).mine = [] ∧
    ((s n).main = .idle ∨ (s n).main = .ended (.ok ()) ∧ (s n).io.reader.ended = true ∧ Over (s n).io) := by
  obtain ⟨as, h1⟩ := crew_run h n
  obtain ⟨ds, sent, I⟩ := crewInv hio hx ht h1
  have hs := hu.stays n
  rw [I.delivered, List.drop_left' rfl] at hs
  exact ⟨as, ds, sent, I, stage_open I.stage hs⟩

/-- The writer is there as long as somebody has something to send. -/
theorem job_alive {n i : Nat} {j : Job} (hi : (s n).jobs[i]? = some j) (hl : j.left ≠ []) :
    (s n).io.txAlive = true ∧ (s n).io.writer.ended = false := by
  obtain ⟨as, ds, sent, I, _⟩ := crew_stand hio hx ht h hu n
  have h2 : (s n).io.txAlive = true := by
    cases h1 : (s n).io.txAlive with
    | true => rfl
    | false => exact absurd ((I.tx h1).2 j (List.mem_of_getElem? hi)) hl
  refine ⟨h2, ?_⟩
  cases he : (s n).io.writer.ended with
  | false => rfl
  | true => exact absurd (C54_alive I.reach h2 he) (hu.writes n)

/-- A thread keeps what it has to send until it sends it. -/
theorem job_keeps {n i : Nat} {j : Job} (hi : (s n).jobs[i]? = some j) :
    (s (n + 1)).jobs[i]? = some j ∨ Crew.Acts k work (.sends i) (s n) (s (n + 1)) := by
  rcases h.next n with h1 | ⟨a, h1⟩
  · rw [h1]; exact .inl hi
  · rcases job_step h1 hi with h2 | h2 | ⟨h2, h3⟩
    · exact .inl h2
    · exact .inr h2
    · rw [(job_alive hio hx ht h hu hi h2).2] at h3; cases h3

/-- A thread that is done stays so. -/
theorem job_stays {n m i : Nat} {j : Job} (hi : (s n).jobs[i]? = some j) (hl : j.left = []) (hm : n ≤ m) :
    (s m).jobs[i]? = some j := by
  induction hm with
  | refl => exact hi
  | @step m hm ih =>
    rcases job_keeps hio hx ht h hu ih with h1 | ⟨a, b, r, t, μ, l, z, io', h1, h2, _⟩
    · exact h1
    · rw [h1, ← h2, getElem_here] at ih
      cases ih
      cases hl

/-- What a thread has to send it sends. -/
theorem job_sends (hs : Crew.Scheduled k work s) (hq : Crew.Queued k work s) {n i : Nat} {j : Job}
    (hi : (s n).jobs[i]? = some j) (hl : j.left ≠ []) :
    ∃ m, n ≤ m ∧ (s m).jobs[i]? = some j ∧ Crew.Acts k work (.sends i) (s m) (s (m + 1)) := by
  apply Classical.byContradiction
  intro hno
  have hall : ∀ m, n ≤ m → (s m).jobs[i]? = some j := by
    intro m hnm
    induction hnm with
    | refl => exact hi
    | @step m hnm ih =>
      rcases job_keeps hio hx ht h hu ih with h1 | h1
      · exact h1
      · exact absurd ⟨m, hnm, ih, h1⟩ hno
  obtain ⟨m, h1, h2⟩ := hq i n fun m hm' => by
    obtain ⟨m', h1, h2⟩ := crew_writer_done h hs m
    refine ⟨m', h1, ?_⟩
    have hp := hall m' (by omega)
    obtain ⟨h3, h4⟩ := job_alive hio hx ht h hu hp hl
    obtain ⟨a, b, h5, h6⟩ := split_at hp
    have hid : (s m').io.writer = .idle := by
      cases hw : (s m').io.writer with
      | idle => rfl
      | writing r => exact absurd hw (h2 r)
      | _ => rw [hw] at h4; cases h4
    obtain ⟨r, t, left, z⟩ := j
    cases left with
    | nil => exact absurd rfl hl
    | cons μ l => exact ⟨_, a, b, r, t, μ, l, z, _, h5, h6, .accept _ μ hid h3, rfl⟩
  exact hno ⟨m, h1, hall m h1, h2⟩

/-- A thread gets done. -/
theorem job_done (hs : Crew.Scheduled k work s) (hq : Crew.Queued k work s) {i : Nat} : ∀ (L : List Message) {n : Nat} {j : Job},
    (s n).jobs[i]? = some j → j.left = L → ∃ m j', n ≤ m ∧ (s m).jobs[i]? = some j' ∧ j'.req = j.req ∧ j'.left = [] := by
  intro L
  induction L with
  | nil => intro n j hi hl; exact ⟨n, j, Nat.le_refl _, hi, rfl, hl⟩
  | cons μ L ih =>
    intro n j hi hl
    obtain ⟨m, h1, h2, a, b, r, t, μ', l, z, io', h3, h4, h5, h6⟩ := job_sends hio hx ht h hu hs hq hi (by simp [hl])
    rw [h3, ← h4, getElem_here] at h2
    cases h2
    simp only [List.cons.injEq] at hl
    obtain ⟨rfl, rfl⟩ := hl
    obtain ⟨m', j', i1, i2, i3, i4⟩ := ih (n := m + 1) (j := ⟨r, t ++ [μ'], l, z⟩) (by
      rw [h6, ← h4]; exact getElem_here _ _ _) rfl
    exact ⟨m', j', by omega, i2, i3, i4⟩

/-- C134: requests come in for ever to a server that starts a thread for each.  If the threads are scheduled fairly and
none that waits to send is passed over for ever, then for each request that has been received at any time there comes a
time when its thread has sent all that it has to send: what has been sent then is that, thread by thread, mixed with what
others have sent, and all of it has been written. -/
theorem C134_sent (hs : Crew.Scheduled k work s) (hq : Crew.Queued k work s) (n : Nat) :
    ∃ (m : Nat) (l : List (Request × List Message)) (others : List (List Message)), n ≤ m ∧
      l.map (·.1) = Spec.requests ((s n).io.delivered.drop io.delivered.length) ∧ (∀ x ∈ l, work x.1 x.2) ∧
      Spec.Merged (l.map (·.2) ++ others) ((s m).io.accepted.drop io.accepted.length) ∧
      (s m).io.out = (s m).io.accepted.flatMap Frame.write := by
  obtain ⟨as, ds, sent, I, hreq, _⟩ := crew_stand hio hx ht h hu n
  have all : ∀ N, N ≤ (s n).jobs.length → ∃ m, n ≤ m ∧ ∀ i, i < N → ∃ j, (s m).jobs[i]? = some j ∧ j.left = [] := by
    intro N
    induction N with
    | zero => exact fun _ => ⟨n, Nat.le_refl _, by intro i hi; omega⟩
    | succ N ih =>
      intro hN
      obtain ⟨m1, h1, h2⟩ := ih (by omega)
      obtain ⟨m2, j, h3, h4, _, h5⟩ := job_done hio hx ht h hu hs hq _ (List.getElem?_eq_getElem (by omega : N < (s n).jobs.length)) rfl
      refine ⟨max m1 m2, by omega, ?_⟩
      intro i hi
      rcases Nat.lt_succ_iff_lt_or_eq.1 hi with hi | rfl
      · obtain ⟨j', h6, h7⟩ := h2 i hi
        exact ⟨j', job_stays hio hx ht h hu h6 h7 (Nat.le_max_left _ _), h7⟩
      · exact ⟨j, job_stays hio hx ht h hu h4 h5 (Nat.le_max_right _ _), h5⟩
  obtain ⟨m1, h1, h2⟩ := all _ (Nat.le_refl _)
  obtain ⟨m, h3, h4⟩ := crew_writer_done h hs m1
  obtain ⟨as', ds', sent', I', hreq', hmine, _⟩ := crew_stand hio hx ht h hu m
  have done : ∀ j ∈ (s m).jobs.take (s n).jobs.length, j.left = [] := by
    intro j hj
    obtain ⟨i, hi⟩ := List.getElem?_of_mem hj
    rw [List.getElem?_take] at hi
    split at hi
    · rename_i hlt
      obtain ⟨j', h5, h6⟩ := h2 i hlt
      rw [job_stays hio hx ht h hu h5 h6 h3] at hi
      cases hi
      exact h6
    · cases hi
  have hds : ∃ t, ds' = ds ++ t := by
    obtain ⟨t, ht'⟩ := (crew_grows h (Nat.le_trans h1 h3)).1
    rw [I.delivered, I'.delivered, List.append_assoc] at ht'
    exact ⟨t, (List.append_cancel_left ht').symm⟩
  obtain ⟨t, rfl⟩ := hds
  refine ⟨m, ((s m).jobs.take (s n).jobs.length).map fun j => (j.req, j.sent),
    ((s m).jobs.drop (s n).jobs.length).map (·.sent), Nat.le_trans h1 h3, ?_, ?_, ?_, ?_⟩
  · rw [I.delivered, List.drop_left' rfl, List.map_map]
    have h5 : (((s m).jobs.take (s n).jobs.length).map (·.req)) = Spec.requests ds := by
      rw [List.map_take, hreq', reqs_append, ← hreq, List.take_left' (by simp)]
    exact h5
  · intro x hx'
    obtain ⟨j, hj, rfl⟩ := List.mem_map.1 hx'
    have hjm := List.mem_of_mem_take hj
    have := I'.works j hjm
    have hz : j.lost = [] := by
      cases hz : j.lost with
      | nil => rfl
      | cons y z => exact absurd (I'.lost j hjm (by simp [hz])).2 (hu.writes m)
    simpa [done j hj, hz] using this
  · rw [I'.accepted, List.drop_left' rfl, List.map_map]
    have h5 := I'.merged
    rw [hmine] at h5
    have h6 := merged_tail h5
    rw [← List.take_append_drop (s n).jobs.length (s m).jobs, List.map_append] at h6
    exact h6
  · have hwi := writeInv I'.reach
    have hne := hu.writes m
    cases hw : (s m).io.writer with
    | idle => simp only [WriteInv, hw] at hwi; exact hwi
    | done => exact (C54_drained I'.reach hw).2
    | writing r => exact absurd hw (h4 r)
    | failed => simp only [WriteInv, hw] at hwi; rw [hw, hwi.1] at hne; exact absurd rfl hne
    | panicked => simp only [WriteInv, hw] at hwi; rw [hw, hwi.1] at hne; exact absurd rfl hne

/-- C134: and the scheduler alone is enough for that every message that has come in is received, up to an exit
notification, however slowly the answers are sent. -/
theorem C134_heard (hwk : ∀ r, ∃ ms, work r ms) (hs : Crew.Scheduled k work s) {n : Nat} {bs : Bytes} {ms : List Message}
    {rest : Bytes} (ha : (s n).io.arrived = bs ++ rest) (hc : Spec.Carries bs ms) :
    ∃ m, n ≤ m ∧ (ms <+: (s m).io.delivered ∨ Message.notification .exit ∈ (s m).io.delivered) := by
  suffices key : ∀ d n rest, (s n).io.arrived = bs ++ rest → ms.length ≤ (s n).io.delivered.length + d →
      ∃ m, n ≤ m ∧ (ms <+: (s m).io.delivered ∨ Message.notification .exit ∈ (s m).io.delivered) from
    key ms.length n rest ha (by omega)
  intro d
  induction d with
  | zero =>
    intro n rest ha hl
    apply Classical.byContradiction
    intro hno
    obtain ⟨as, ds, sent, I, _⟩ := crew_stand hio hx ht h hu n
    have := (io_heard I.reach ha hc (fun h => hno ⟨n, Nat.le_refl _, .inl h⟩) (fun h => hno ⟨n, Nat.le_refl _, .inr h⟩)).2.1
    omega
  | succ d ih =>
    intro n rest ha hl
    apply Classical.byContradiction
    intro hno
    have arr : ∀ m, n ≤ m → ∃ rest, (s m).io.arrived = bs ++ rest := by
      intro m hm
      obtain ⟨t, h1⟩ := (crew_grows h hm).2.2
      exact ⟨rest ++ t, by rw [← h1, ha, List.append_assoc]⟩
    have more : ∀ m, n ≤ m → (s m).io.reader.ended = false ∧ (s m).main = .idle ∧ (s m).io.rxAlive = true ∧
        ((s m).io.reader = .reading → ∃ io', Transport.Step k (s m).io .read io') := by
      intro m hm
      obtain ⟨rest, ha⟩ := arr m hm
      obtain ⟨as, ds, sent, I, _, _, h0⟩ := crew_stand hio hx ht h hu m
      obtain ⟨h1, _, h3⟩ := io_heard I.reach ha hc (fun h => hno ⟨m, hm, .inl h⟩) (fun h => hno ⟨m, hm, .inr h⟩)
      have hi : (s m).main = .idle := by
        rcases h0 with h0 | ⟨_, _, h0⟩
        · exact h0
        · exact absurd h0 h1
      have hrx : (s m).io.rxAlive = true := by
        cases hrx : (s m).io.rxAlive with
        | true => rfl
        | false => obtain ⟨r, h4⟩ := I.rx hrx; rw [hi] at h4; cases h4
      refine ⟨?_, hi, hrx, h3⟩
      cases he : (s m).io.reader.ended with
      | false => rfl
      | true => exact absurd (over_closed I.reach he hrx) h1
    have same : ∀ m, n ≤ m → (s m).io.delivered = (s n).io.delivered := by
      intro m hm
      obtain ⟨rest, ha⟩ := arr m hm
      have h1 := (crew_grows h hm).1
      refine (h1.eq_of_length_le ?_).symm
      apply Classical.byContradiction
      intro hl'
      obtain ⟨m', h2, h3⟩ := ih m rest ha (by omega)
      exact hno ⟨m', by omega, h3⟩
    have ⟨m0, hm0, μ, hμ⟩ : ∃ m, n ≤ m ∧ ∃ μ, (s m).io.reader = .sending μ := by
      apply Classical.byContradiction
      intro hns
      have hrd : ∀ m, n ≤ m → (s m).io.reader = .reading := by
        intro m hm
        have h1 := (more m hm).1
        cases h2 : (s m).io.reader with
        | reading => rfl
        | sending μ => exact absurd ⟨m, hm, μ, h2⟩ hns
        | _ => rw [h2] at h1; cases h1
      obtain ⟨m, hm, io', h1, h2⟩ := hs .reader n fun m hm => by
        obtain ⟨io', h1⟩ := (more m hm).2.2.2 (hrd m hm)
        exact ⟨_, io', h1, rfl⟩
      have h3 := hrd (m + 1) (by omega)
      rw [h2] at h3
      cases h1 with
      | read r => cases r <;> first | cases h3 | (cases k <;> cases h3)
    have wait : ∀ m, m0 ≤ m → (s m).io.reader = .sending μ := by
      intro m hm
      induction hm with
      | refl => exact hμ
      | @step m hm ih' =>
        have hnm : n ≤ m := Nat.le_trans hm0 hm
        rcases crew_next h m with h3 | ⟨act, h3⟩
        · rw [Nat.succ_eq_add_one, h3]; exact ih'
        · have h4 := same (m + 1) (by omega)
          have h5 := same m hnm
          have h6 := (more m hnm).2.2.1
          rw [Nat.succ_eq_add_one]
          generalize s (m + 1) = q at h3 h4
          generalize q.io = q at h3 h4
          cases h3 with
          | read r h7 => rw [ih'] at h7; cases h7
          | deliver μ' =>
            simp only [h5] at h4
            exact absurd (congrArg List.length h4) (by simp)
          | undeliverable _ _ h7 => rw [h6] at h7; cases h7
          | _ => exact ih'
    obtain ⟨m, hm, μ', io', _, h5, h6⟩ := hs .receives m0 fun m hm => by
      obtain ⟨_, h1, h2, _⟩ := more m (by omega)
      have hrec : (s m).main.receives = true := by rw [h1]; rfl
      by_cases hr : ∃ r, Crew.onRecv (s m).main (some μ) = .answering r
      · obtain ⟨r, hr⟩ := hr
        obtain ⟨ms', hw⟩ := hwk r
        exact ⟨_, μ, _, hrec, .deliver _ μ (wait m hm) h2, .inl ⟨r, ms', hr, hw, rfl⟩⟩
      · exact ⟨_, μ, _, hrec, .deliver _ μ (wait m hm) h2, .inr ⟨fun r h => hr ⟨r, h⟩, rfl⟩⟩
    have h7 := same (m + 1) (by omega)
    have h8 : (s (m + 1)).io = io' := by
      rcases h6 with ⟨_, _, _, _, h6⟩ | ⟨_, h6⟩ <;> rw [h6]
    rw [h8] at h7
    cases h5
    simp only [same m (by omega)] at h7
    exact absurd (congrArg List.length h7) (by simp)

end

/-! ### One request after the other, each with a thread -/

/-- The connection after a request has come in and been answered with a message. -/
def served (io : Transport.State) (f : Bytes) (r : Request) (μ : Message) : Transport.State :=
  { io with arrived := io.arrived ++ f, delivered := io.delivered ++ [.request r], accepted := io.accepted ++ [μ],
            out := io.out ++ Frame.write μ }

/-- The connection after so many. -/
def servedAll (io : Transport.State) (f : Nat → Bytes) (rq : Nat → Request) (an : Nat → Message) : Nat → Transport.State
  | 0 => io
  | j + 1 => served (servedAll io f rq an j) (f j) (rq j) (an j)

/-- On the way from one to the next: `js` are the threads that there are. -/
def dealing (io : Transport.State) (f : Bytes) (r : Request) (μ : Message) (js : List Job) : Nat → Crew.State
  | 0 => { io := io, jobs := js }
  | 1 => { io := { io with arrived := io.arrived ++ f, unread := f }, jobs := js }
  | 2 => { io := { io with arrived := io.arrived ++ f, reader := .sending (.request r) }, jobs := js }
  | 3 => { io := { io with arrived := io.arrived ++ f, delivered := io.delivered ++ [.request r] },
           jobs := js ++ [⟨r, [], [μ], []⟩] }
  | 4 => { io := { io with arrived := io.arrived ++ f, delivered := io.delivered ++ [.request r],
                           accepted := io.accepted ++ [μ], writer := .writing (Frame.write μ) },
           jobs := js ++ [⟨r, [μ], [], []⟩] }
  | _ => { io := { io with arrived := io.arrived ++ f, delivered := io.delivered ++ [.request r],
                           accepted := io.accepted ++ [μ], writer := .writing [], out := io.out ++ Frame.write μ },
           jobs := js ++ [⟨r, [μ], [], []⟩] }

/-- The threads that are done. -/
def doneJobs (rq : Nat → Request) (an : Nat → Message) (j : Nat) : List Job :=
  (List.range j).map fun i => ⟨rq i, [an i], [], []⟩

/-- All the time. -/
def forEver (io : Transport.State) (f : Nat → Bytes) (rq : Nat → Request) (an : Nat → Message) (js : List Job) (n : Nat) :
    Crew.State :=
  dealing (servedAll io f rq an (n / 6)) (f (n / 6)) (rq (n / 6)) (an (n / 6)) (js ++ doneJobs rq an (n / 6)) (n % 6)

variable {f : Nat → Bytes} {rq : Nat → Request} {an : Nat → Message} {js : List Job}

omit [Dbg] in
theorem servedAll_rests (hio : Spec.Resting io) (j : Nat) : Spec.Resting (servedAll io f rq an j) := by
  induction j with
  | zero => exact hio
  | succ j ih =>
    obtain ⟨h1, h2, h3, h4, h5, h6⟩ := ih
    exact ⟨h1, h2, h3, h4, h5, h6⟩

omit [Dbg] in
theorem servedAll_all (j : Nat) :
    (servedAll io f rq an j).delivered = io.delivered ++ ((List.range j).map rq).map .request ∧
    (servedAll io f rq an j).accepted = io.accepted ++ (List.range j).map an ∧
    (servedAll io f rq an j).out = io.out ++ ((List.range j).map an).flatMap Frame.write := by
  induction j with
  | zero => simp [servedAll]
  | succ j ih => simp [servedAll, served, ih.1, ih.2.1, ih.2.2, List.range_succ]

omit [FloatText] in
theorem crew_hears {r : Request} (h : ∀ id, r ≠ .shutdown id) : Crew.onRecv .idle (some (.request r)) = .answering r := by
  cases r with
  | shutdown id => exact absurd rfl (h id)
  | _ => rfl

theorem dealing_step {io : Transport.State} {f : Bytes} {r : Request} {μ : Message} (hio : Spec.Resting io)
    (hc : Spec.Carries f [.request r]) (hn : ∀ id, r ≠ .shutdown id) (hw : work r [μ]) (t : Nat) (ht : t < 5) :
    ∃ act, Crew.Step k work (dealing io f r μ js t) act (dealing io f r μ js (t + 1)) := by
  obtain ⟨hr, hu, hi, hx, hwr, htx⟩ := hio
  obtain ⟨b0, f0, e0, c0, r0⟩ := carries_last (k := k) (ms := []) hc
  have : b0 = [] := by
    generalize h0 : ([] : List Message) = l at c0
    cases c0 with
    | nil => rfl
    | snoc => simp at h0
  subst this
  rw [List.nil_append] at e0
  subst e0
  match t, ht with
  | 0, _ =>
    refine ⟨.peer, ?_⟩
    have := Crew.Step.io (k := k) (work := work) (p := { io := io, jobs := js }) (act := .peer) (.arrive io f hi) rfl
    rw [hu, List.nil_append] at this
    exact this
  | 1, _ =>
    refine ⟨.thread, ?_⟩
    have := Crew.Step.io (k := k) (work := work) (p := dealing io f r μ js 1) (act := .thread)
      (r0 { io with arrived := io.arrived ++ f, unread := f } hr [] (by simp)) rfl
    simpa [dealing, hu] using this
  | 2, _ =>
    refine ⟨.worker, ?_⟩
    have := Crew.Step.hire (k := k) (work := work) (p := dealing io f r μ js 2) (r := r) (ms := [μ]) rfl
      (.deliver { io with arrived := io.arrived ++ f, reader := .sending (.request r) } (.request r) rfl hx)
      (crew_hears hn) hw
    simpa [dealing, afterSend, isExit, hr] using this
  | 3, _ =>
    refine ⟨.worker, ?_⟩
    exact Crew.Step.send (k := k) (work := work) (a := js) (b := []) (r := r) (s := []) (l := []) (z := [])
      (.accept { io with arrived := io.arrived ++ f, delivered := io.delivered ++ [.request r] } μ hwr htx)
  | 4, _ =>
    refine ⟨.thread, ?_⟩
    have hne : Frame.write μ ≠ [] := by
      intro h
      have := congrArg List.length h
      simp [Frame.write, Frame.frame, utf8] at this
      exact absurd this.1 (by decide)
    exact Crew.Step.io (k := k) (work := work) (p := dealing io f r μ js 4) (act := .thread)
      (.write { io with arrived := io.arrived ++ f, delivered := io.delivered ++ [.request r],
                        accepted := io.accepted ++ [μ], writer := .writing (Frame.write μ) }
        (Frame.write μ) [] (by simp) hne) rfl

omit [Dbg] in
theorem dealing_last {io : Transport.State} {f : Bytes} {r : Request} {μ : Message} (hio : Spec.Resting io) :
    Transport.Step k (dealing io f r μ js 5).io .written (served io f r μ) := by
  obtain ⟨hr, hu, hi, hx, hw, htx⟩ := hio
  have := Transport.Step.written (k := k) (dealing io f r μ js 5).io rfl
  simpa [dealing, served, ← hw] using this

omit [Dbg] in
theorem ever_next (n t : Nat) (h : n % 6 = t) (ht : t < 5) : forEver io f rq an js (n + 1) =
    dealing (servedAll io f rq an (n / 6)) (f (n / 6)) (rq (n / 6)) (an (n / 6)) (js ++ doneJobs rq an (n / 6)) (t + 1) := by
  have e1 : (n + 1) / 6 = n / 6 := by omega
  have e2 : (n + 1) % 6 = t + 1 := by omega
  unfold forEver
  rw [e1, e2]

omit [Dbg] in
theorem ever_round (n : Nat) (h : n % 6 = 5) : forEver io f rq an js (n + 1) =
    { io := served (servedAll io f rq an (n / 6)) (f (n / 6)) (rq (n / 6)) (an (n / 6)),
      jobs := js ++ doneJobs rq an (n / 6) ++ [⟨rq (n / 6), [an (n / 6)], [], []⟩] } := by
  have e1 : (n + 1) / 6 = n / 6 + 1 := by omega
  have e2 : (n + 1) % 6 = 0 := by omega
  unfold forEver
  rw [e1, e2]
  simp [dealing, servedAll, doneJobs, List.range_succ]

theorem ever_step (hio : Spec.Resting io) (hc : ∀ j, Spec.Carries (f j) [.request (rq j)]) (hn : ∀ j id, rq j ≠ .shutdown id)
    (hw : ∀ j, work (rq j) [an j]) (n : Nat) :
    ∃ act, Crew.Step k work (forEver io f rq an js n) act (forEver io f rq an js (n + 1)) := by
  have hlt : n % 6 < 6 := Nat.mod_lt _ (by omega)
  rcases Nat.lt_or_ge (n % 6) 5 with h | h
  · rw [ever_next n _ rfl h]
    exact dealing_step (servedAll_rests hio _) (hc _) (hn _) (hw _) _ h
  · have h5 : n % 6 = 5 := by omega
    rw [ever_round n h5]
    refine ⟨.thread, ?_⟩
    unfold forEver
    rw [h5]
    exact .io (dealing_last (js := js ++ doneJobs rq an (n / 6)) (servedAll_rests hio _)) rfl

/-- All threads in their turn. -/
theorem ever_scheduled (hio : Spec.Resting io) (hc : ∀ j, Spec.Carries (f j) [.request (rq j)]) :
    Crew.Scheduled k work (forEver io f rq an js) := by
  intro i n hall
  have at0 : forEver io f rq an js (6 * n) = { io := servedAll io f rq an n, jobs := js ++ doneJobs rq an n } := by
    unfold forEver
    rw [Nat.mul_mod_right, Nat.mul_div_cancel_left _ (by omega)]
    rfl
  have hre := servedAll_rests (f := f) (rq := rq) (an := an) hio n
  cases i with
  | reader =>
    have e1 : (6 * n + 1) % 6 = 1 := by omega
    have e2 : (6 * n + 1) / 6 = n := by omega
    refine ⟨6 * n + 1, by omega, ?_⟩
    rw [ever_next _ _ e1 (by omega)]
    unfold forEver
    rw [e1, e2]
    obtain ⟨b0, f0, e0, c0, r0⟩ := carries_last (k := k) (ms := []) (hc n)
    have : b0 = [] := by
      generalize h0 : ([] : List Message) = l at c0
      cases c0 with
      | nil => rfl
      | snoc => simp at h0
    subst this
    rw [List.nil_append] at e0
    refine ⟨_, r0 (dealing (servedAll io f rq an n) (f n) (rq n) (an n) (js ++ doneJobs rq an n) 1).io hre.1 [] (by simp [dealing, e0]), ?_⟩
    simp [dealing, hre.2]
  | writer =>
    obtain ⟨q, act, io', h1, h2, _⟩ := hall (6 * n) (by omega)
    rw [at0] at h2
    have hw := hre.5
    rcases h1 with rfl | ⟨bs, rfl⟩
    · cases h2 with
      | written h3 => rw [hw] at h3; cases h3
    · cases h2 with
      | write _ _ h3 => rw [hw] at h3; cases h3
  | receives =>
    obtain ⟨q, _, _, _, h2, _⟩ := hall (6 * n) (by omega)
    rw [at0] at h2
    cases h2 with
    | deliver _ h3 => rw [hre.1] at h3; cases h3
  | sends i =>
    have e1 : (6 * n + 4) % 6 = 4 := by omega
    obtain ⟨q, _, _, _, _, _, _, _, _, _, _, h2, _⟩ := hall (6 * n + 4) (by omega)
    unfold forEver at h2
    rw [e1] at h2
    cases h2 with
    | accept _ h3 => cases h3

omit [Dbg] in
theorem ever_writes (hio : Spec.Resting io) (n : Nat) : (forEver io f rq an js n).io.writer ≠ writeError k := by
  have hw := (servedAll_rests (f := f) (rq := rq) (an := an) hio (n / 6)).5
  unfold forEver dealing
  split <;> cases k <;> simp [writeError, hw]

omit [Dbg] in
theorem ever_heard (n : Nat) : ∃ j, (forEver io f rq an js n).io.delivered = io.delivered ++ ((List.range j).map rq).map .request := by
  have h1 := (servedAll_all (io := io) (f := f) (rq := rq) (an := an) (n / 6)).1
  have h2 := (servedAll_all (io := io) (f := f) (rq := rq) (an := an) (n / 6 + 1)).1
  unfold forEver dealing
  split <;> first | exact ⟨_, h1⟩ | exact ⟨_, h2⟩

omit [Dbg] in
/-- The jobs, and the one that is being dealt with. -/
theorem ever_jobs (n : Nat) : ∃ l, (forEver io f rq an js n).jobs = js ++ (doneJobs rq an (n / 6) ++ l) ∧ l.length ≤ 1 := by
  unfold forEver dealing
  split <;> first
    | exact ⟨[], congrArg (js ++ ·) (List.append_nil _).symm, Nat.zero_le _⟩
    | exact ⟨[_], List.append_assoc _ _ _, Nat.le_refl _⟩

/-- C134: such runs there are: for any endless sequence of requests, whose threads have one message each to send, there is a
run, fair in both ways, in which they all come in and are received. -/
theorem C134_exists (hio : Spec.Resting io) (hc : ∀ j, Spec.Carries (f j) [.request (rq j)])
    (hn : ∀ j id, rq j ≠ .shutdown id) (hw : ∀ j, work (rq j) [an j]) :
    ∃ s, Crew.Run k work io s ∧ Spec.Calmly k io s ∧ Crew.Scheduled k work s ∧ Crew.Queued k work s ∧
      ∀ j, ∃ m, (s m).io.delivered = io.delivered ++ ((List.range j).map rq).map .request := by
  refine ⟨forEver io f rq an [], ⟨?_, fun i => .inr (ever_step hio hc hn hw i)⟩,
    ⟨ever_writes hio, ?_⟩, ever_scheduled hio hc, ?_, ?_⟩
  · simp [forEver, dealing, servedAll, doneJobs]
  · intro n
    obtain ⟨j, h⟩ := ever_heard (io := io) (f := f) (rq := rq) (an := an) (js := []) n
    rw [h, List.drop_left' rfl]
    intro id hm
    simp only [List.map_map, List.mem_map, Function.comp_apply] at hm
    obtain ⟨i, _, h1⟩ := hm
    exact hn i id (Message.request.inj h1)
  · intro i n hall
    exfalso
    obtain ⟨m, hm, q, a, b, r, t, μ, l, z, io', h1, h2, _⟩ := hall (n + 6 * (i + 1)) (by omega)
    obtain ⟨l', h3, _⟩ := ever_jobs (io := io) (f := f) (rq := rq) (an := an) (js := []) m
    have h4 : (doneJobs rq an (m / 6))[i]? = some ⟨r, t, μ :: l, z⟩ := by
      rw [h1] at h3
      have h5 := congrArg (fun l => l[i]?) h3
      have hlt : i < (doneJobs rq an (m / 6)).length := by simp [doneJobs]; omega
      simp only [List.nil_append, List.getElem?_append_left hlt] at h5
      rw [← h5, ← h2]
      exact getElem_here _ _ _
    have h5 := List.mem_of_getElem? h4
    simp [doneJobs] at h5
  · intro j
    refine ⟨6 * j, ?_⟩
    unfold forEver
    rw [Nat.mul_mod_right, Nat.mul_div_cancel_left _ (by omega)]
    exact (servedAll_all j).1

/-- C134: without the second kind of fairness one thread can wait for ever: for any request, whose thread has something to
send, and any endless sequence of requests after it, there is a run in which no thread that could act all the time never
does, all those other requests are received and what their threads have to send is sent and written, and the thread of the
first has not sent anything. -/
theorem C134_starves (hio : Spec.Resting io) {f0 : Bytes} {r0 : Request} {μ0 : Message} {l0 : List Message}
    (hc0 : Spec.Carries f0 [.request r0]) (hn0 : ∀ id, r0 ≠ .shutdown id) (hw0 : work r0 (μ0 :: l0))
    (hc : ∀ j, Spec.Carries (f j) [.request (rq j)]) (hn : ∀ j id, rq j ≠ .shutdown id) (hw : ∀ j, work (rq j) [an j]) :
    ∃ s, Crew.Run k work io s ∧ Spec.Calmly k io s ∧ Crew.Scheduled k work s ∧
      (∀ j, ∃ m, (s m).io.delivered = io.delivered ++ (r0 :: (List.range j).map rq).map .request ∧
        (s m).io.accepted = io.accepted ++ (List.range j).map an ∧
        (s m).io.out = io.out ++ ((List.range j).map an).flatMap Frame.write) ∧
      ∀ m, 3 ≤ m → (s m).jobs[0]? = some ⟨r0, [], μ0 :: l0, []⟩ ∧
        ∃ j, (s m).io.accepted = io.accepted ++ (List.range j).map an := by
  obtain ⟨hr, hu, hi, hx, hwr, htx⟩ := hio
  have hio : Spec.Resting io := ⟨hr, hu, hi, hx, hwr, htx⟩
  let J : Job := ⟨r0, [], μ0 :: l0, []⟩
  let io3 := (dealing io f0 r0 μ0 [] 3).io
  have hr3 : Spec.Resting io3 := ⟨hio.1, hio.2, hio.3, hio.4, hio.5, hio.6⟩
  let go := forEver io3 f rq an [J]
  let s : Nat → Crew.State := fun n => if n < 3 then dealing io f0 r0 μ0 [] n else go (n - 3)
  have later : ∀ n, s (n + 3) = go n := by
    intro n
    simp only [s]
    rw [if_neg (by omega)]
    rfl
  have meet : go 0 = { io := io3, jobs := [J] } := by simp [go, forEver, dealing, servedAll, doneJobs]
  have late : ∀ {m}, 3 ≤ m → ∃ n, m = n + 3 := fun h => ⟨_, (Nat.sub_add_cancel h).symm⟩
  obtain ⟨b0, f0', e0, c0, rd⟩ := carries_last (k := k) (ms := []) hc0
  have : b0 = [] := by
    generalize h0 : ([] : List Message) = l at c0
    cases c0 with
    | nil => rfl
    | snoc => simp at h0
  subst this
  rw [List.nil_append] at e0
  subst e0
  refine ⟨s, ⟨?_, ?_⟩, ⟨?_, ?_⟩, ?_, ?_, ?_⟩
  · simp [s, dealing]
  · intro i
    refine .inr ?_
    rcases Nat.lt_or_ge i 3 with h | h
    · match i, h with
      | 0, _ =>
        refine ⟨.peer, ?_⟩
        have := Crew.Step.io (k := k) (work := work) (p := { io := io, jobs := [] }) (act := .peer) (.arrive io f0 hi) rfl
        rw [hu, List.nil_append] at this
        exact this
      | 1, _ =>
        refine ⟨.thread, ?_⟩
        have := Crew.Step.io (k := k) (work := work) (p := dealing io f0 r0 μ0 [] 1) (act := .thread)
          (rd { io with arrived := io.arrived ++ f0, unread := f0 } hr [] (by simp)) rfl
        simpa [s, dealing, hu] using this
      | 2, _ =>
        refine ⟨.worker, ?_⟩
        have := Crew.Step.hire (k := k) (work := work) (p := dealing io f0 r0 μ0 [] 2) (r := r0) (ms := μ0 :: l0) rfl
          (.deliver { io with arrived := io.arrived ++ f0, reader := .sending (.request r0) } (.request r0) rfl hx)
          (crew_hears hn0) hw0
        rw [show s (2 + 1) = _ from later 0, meet]
        simpa [s, dealing, afterSend, isExit, hr, io3, J] using this
    · obtain ⟨n, rfl⟩ := late h
      rw [later, show n + 3 + 1 = n + 1 + 3 by omega, later]
      exact ever_step hr3 hc hn hw n
  · intro m
    rcases Nat.lt_or_ge m 3 with h | h
    · simp only [s]
      rw [if_pos h]
      match m, h with
      | 0, _ | 1, _ | 2, _ => simp only [dealing, hwr]; cases k <;> simp [writeError]
    · obtain ⟨n, rfl⟩ := late h
      rw [later]
      exact ever_writes hr3 n
  · intro m
    rcases Nat.lt_or_ge m 3 with h | h
    · simp only [s]
      rw [if_pos h]
      match m, h with
      | 0, _ | 1, _ | 2, _ => simp [dealing, Spec.NoShutdown]
    · obtain ⟨n, rfl⟩ := late h
      rw [later]
      obtain ⟨j, h1⟩ := ever_heard (io := io3) (f := f) (rq := rq) (an := an) (js := [J]) n
      have h2 : (go n).io.delivered = io.delivered ++ (.request r0 :: ((List.range j).map rq).map .request) := by
        rw [h1]; simp [io3, dealing]
      rw [h2, List.drop_left' rfl]
      intro id hm
      rcases List.mem_cons.1 hm with h3 | h3
      · exact hn0 id (Message.request.inj h3).symm
      · simp only [List.map_map, List.mem_map, Function.comp_apply] at h3
        obtain ⟨i, _, h4⟩ := h3
        exact hn i id (Message.request.inj h4)
  · intro i n hall
    obtain ⟨m, h1, h2⟩ := ever_scheduled (k := k) (work := work) (an := an) (js := [J]) hr3 hc i n fun m hm => by
      have := hall (m + 3) (by omega)
      rwa [later] at this
    refine ⟨m + 3, by omega, ?_⟩
    rw [later, show m + 3 + 1 = m + 1 + 3 by omega, later]
    exact h2
  · intro j
    have e : s (6 * j + 3) = { io := servedAll io3 f rq an j, jobs := [J] ++ doneJobs rq an j } := by
      rw [later]
      simp only [go, forEver]
      rw [Nat.mul_mod_right, Nat.mul_div_cancel_left _ (by omega)]
      rfl
    obtain ⟨h1, h2, h3⟩ := servedAll_all (io := io3) (f := f) (rq := rq) (an := an) j
    refine ⟨6 * j + 3, ?_, ?_, ?_⟩
    · rw [e]; simp only [h1]; simp [io3, dealing]
    · rw [e]; exact h2
    · rw [e]; exact h3
  · intro m hm
    obtain ⟨n, rfl⟩ := late hm
    rw [later]
    refine ⟨?_, ?_⟩
    · obtain ⟨l, h1, _⟩ := ever_jobs (io := io3) (f := f) (rq := rq) (an := an) (js := [J]) n
      rw [show (go n).jobs = _ from h1]
      rfl
    · have h1 := (servedAll_all (io := io3) (f := f) (rq := rq) (an := an) (n / 6)).2.1
      have h2 := (servedAll_all (io := io3) (f := f) (rq := rq) (an := an) (n / 6 + 1)).2.1
      simp only [go, forEver]
      unfold dealing
      split <;> first | exact ⟨_, h1⟩ | exact ⟨_, h2⟩

end

/-! ### Concrete cases -/

section
attribute [local instance] Ext.sample FloatText.sample Dbg.sample

/-- What the thread of a request has to send: an answer. -/
def sampleThread (r : Request) (ms : List Message) : Prop := ms = [reply r]

/-- Beside C134_exists, C134_sent and C134_heard: two requests in turn for ever: the first hundred are received, and what
their threads have to send is sent and written. -/
example (k : Kind) : ∃ s, Crew.Run k sampleThread {} s ∧ Crew.Scheduled k sampleThread s ∧ Crew.Queued k sampleThread s ∧
    (∃ m others, Spec.Merged (((List.range 100).map sampleTurns).map (fun r => [reply r]) ++ others) (s m).io.accepted ∧
      (s m).io.out = (s m).io.accepted.flatMap write) ∧
    ∀ n bs ms rest, (s n).io.arrived = bs ++ rest → Spec.Carries bs ms →
      ∃ m, n ≤ m ∧ (ms <+: (s m).io.delivered ∨ Message.notification .exit ∈ (s m).io.delivered) := by
  obtain ⟨s, h1, h2, h3, h4, h5⟩ := C134_exists (k := k) (work := sampleThread) (an := fun j => reply (sampleTurns j))
    resting_start sampleTurns_carries sampleTurns_stay (fun _ => rfl)
  refine ⟨s, h1, h3, h4, ?_, fun n bs ms rest ha hc =>
    C134_heard (reachable_start k) rfl rfl h1 h2 (fun r => ⟨_, rfl⟩) h3 ha hc⟩
  obtain ⟨n, hn⟩ := h5 100
  obtain ⟨m, l, others, _, i1, i2, i3, i4⟩ := C134_sent (reachable_start k) rfl rfl h1 h2 h3 h4 n
  have e : ∀ l : List Request, Spec.requests (l.map .request) = l := by
    intro l; induction l with
    | nil => rfl
    | cons r l ih => simp [Spec.requests, ih]
  rw [hn] at i1
  simp only [List.length_nil, List.drop_zero, List.nil_append, e] at i1
  refine ⟨m, others, ?_, i4⟩
  have e2 : l.map (·.2) = ((List.range 100).map sampleTurns).map (fun r => [reply r]) := by
    rw [← i1, List.map_map]
    exact List.map_congr_left fun x hx => i2 x hx
  rw [e2] at i3
  simpa using i3

/-- Beside C134_starves: the thread of the first request never sends its answer, while all others do. -/
example (k : Kind) : ∃ s, Crew.Run k sampleThread {} s ∧ Crew.Scheduled k sampleThread s ∧
    (∀ j, ∃ m, (s m).io.accepted.length = j) ∧
    ∀ m, 3 ≤ m → (s m).jobs[0]? = some ⟨.workspaceReload (.str "a"), [], [reply (.workspaceReload (.str "a"))], []⟩ := by
  obtain ⟨s, h1, _, h3, h4, h5⟩ := C134_starves (k := k) (work := sampleThread) (an := fun j => reply (sampleTurns j))
    resting_start (r0 := .workspaceReload (.str "a")) (sampleTurns_carries 1) (by simp) rfl sampleTurns_carries
    sampleTurns_stay (fun _ => rfl)
  refine ⟨s, h1, h3, ?_, fun m hm => (h5 m hm).1⟩
  intro j
  obtain ⟨m, _, i2, _⟩ := h4 j
  exact ⟨m, by rw [i2]; simp⟩

end
end Bsp
