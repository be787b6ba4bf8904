/-
C132: workers that share a connection on which requests come in for ever.
-/
import Verif.Endless
import Verif.Props.Backlog

namespace Bsp
open Conn Session Transport Frame
open Pool (Actor Acts Run Scheduled Queued)

section
variable [Ext] [Dbg] [FloatText] {k : Kind}

/-- Of a run: the connection works, and nobody asks to shut down. -/
structure Spec.Undisturbed (k : Kind) (io : Transport.State) (s : Nat → Pool.State) : Prop where
  writes : ∀ m, (s m).io.writer ≠ writeError k
  stays : ∀ m, Spec.NoShutdown ((s m).io.delivered.drop io.delivered.length)

/-! ### Lists -/

omit [Ext] [Dbg] [FloatText] in
theorem getElem_other {α : Type} {a b : List α} {x y : α} {i : Nat} (h : i ≠ a.length) :
    (a ++ x :: b)[i]? = (a ++ y :: b)[i]? := by
  simp only [List.getElem?_append]
  split
  · rfl
  · have : i - a.length ≠ 0 := by omega
    obtain ⟨j, hj⟩ := Nat.exists_eq_succ_of_ne_zero this
    rw [hj]; rfl

omit [Ext] [Dbg] [FloatText] in
theorem getElem_here {α : Type} (a b : List α) (x : α) : (a ++ x :: b)[a.length]? = some x := by simp

omit [Ext] [Dbg] [FloatText] in
theorem split_at {α : Type} {l : List α} {i : Nat} {x : α} (h : l[i]? = some x) : ∃ a b, l = a ++ x :: b ∧ a.length = i := by
  induction l generalizing i with
  | nil => simp at h
  | cons y l ih =>
    cases i with
    | zero => simp at h; subst h; exact ⟨[], l, rfl, rfl⟩
    | succ i =>
      obtain ⟨a, b, rfl, rfl⟩ := ih (by simpa using h)
      exact ⟨y :: a, b, rfl, rfl⟩

omit [Ext] [Dbg] [FloatText] in
open Classical in
/-- What is contained with its multiplicity can be taken out. -/
theorem take_out {α : Type} {l r : List α} (h : ∀ x, l.count x ≤ r.count x) : ∃ o, (l ++ o).Perm r := by
  induction l generalizing r with
  | nil => exact ⟨r, .refl _⟩
  | cons x l ih =>
    have hx : x ∈ r := List.count_pos_iff.1 (Nat.lt_of_lt_of_le (by simp) (h x))
    obtain ⟨a, b, rfl⟩ := List.append_of_mem hx
    obtain ⟨o, ho⟩ := ih (r := a ++ b) (by
      intro y
      have := h y
      simp only [List.count_cons, List.count_append] at this ⊢
      omega)
    exact ⟨o, (List.Perm.cons x ho).trans List.perm_middle.symm⟩

/-! ### Steps -/

/-- What becomes of a worker. -/
theorem place_step {p q : Pool.State} {a : Pool.Act} {i : Nat} {x : App} (h : Pool.Step k p a q)
    (hx : p.workers[i]? = some x) :
    q.workers[i]? = some x ∨ Acts k (.receives i) p q ∨ Acts k (.sends i) p q ∨
      (x.receives = true ∧ p.io.reader.ended = true) ∨ ((∃ m, toSend x = some m) ∧ p.io.writer.ended = true) ∨
      x = .leaving := by
  cases h with
  | io h1 => exact .inl hx
  | @recv io io' l b y m h1 h2 =>
    by_cases hi : i = l.length
    · exact .inr (.inl ⟨l, y, b, m, io', rfl, hi.symm, h1, h2, rfl⟩)
    · exact .inl (by rw [← hx]; exact getElem_other hi)
  | @closed io l b y h1 h2 =>
    by_cases hi : i = l.length
    · rw [hi, getElem_here] at hx; cases hx
      exact .inr (.inr (.inr (.inl ⟨h1, h2⟩)))
    · exact .inl (by rw [← hx]; exact getElem_other hi)
  | @send io io' l b y m h1 h2 =>
    by_cases hi : i = l.length
    · exact .inr (.inr (.inl ⟨l, y, b, m, io', rfl, hi.symm, h1, h2, rfl⟩))
    · exact .inl (by rw [← hx]; exact getElem_other hi)
  | @unsent io l b y m h1 h2 =>
    by_cases hi : i = l.length
    · rw [hi, getElem_here] at hx; cases hx
      exact .inr (.inr (.inr (.inr (.inl ⟨⟨m, h1⟩, h2⟩))))
    · exact .inl (by rw [← hx]; exact getElem_other hi)
  | @timeout io l b =>
    by_cases hi : i = l.length
    · rw [hi, getElem_here] at hx; cases hx
      exact .inr (.inr (.inr (.inr (.inr rfl))))
    · exact .inl (by rw [← hx]; exact getElem_other hi)
  | dropRx h1 => exact .inl hx
  | dropTx h1 => exact .inl hx

/-- The step of a pool as a step of its connection. -/
theorem pool_io {p q : Pool.State} {a : Pool.Act} (h : Pool.Step k p a q) :
    q.io = p.io ∨ ∃ act, Transport.Step k p.io act q.io := by
  cases h with
  | io h1 => exact .inr ⟨_, h1⟩
  | recv _ h1 => exact .inr ⟨_, h1⟩
  | send _ h1 => exact .inr ⟨_, h1⟩
  | dropRx => exact .inr ⟨_, .dropRx _⟩
  | dropTx => exact .inr ⟨_, .dropTx _⟩
  | _ => exact .inl rfl

omit [Dbg] in
/-- What only grows. -/
theorem io_grows {s s' : Transport.State} {a : Transport.Act} (h : Transport.Step k s a s') :
    s.delivered <+: s'.delivered ∧ s.accepted <+: s'.accepted ∧ s.arrived <+: s'.arrived := by
  have e := fun {α : Type} (l : List α) => List.prefix_refl l
  cases h with
  | arrive bs => exact ⟨e _, e _, List.prefix_append _ _⟩
  | read r => cases r <;> exact ⟨e _, e _, e _⟩
  | deliver m => exact ⟨List.prefix_append _ _, e _, e _⟩
  | accept m => exact ⟨e _, List.prefix_append _ _, e _⟩
  | _ => exact ⟨e _, e _, e _⟩

variable {io : Transport.State} {w : Nat} {s : Nat → Pool.State}

theorem pool_run (h : Run k io w s) (n : Nat) : ∃ as, Pool.Steps k (Pool.start io w) as (s n) := by
  induction n with
  | zero => exact ⟨[], h.start ▸ .nil _⟩
  | succ n ih =>
    obtain ⟨as, h1⟩ := ih
    rcases h.next n with h2 | ⟨a, h2⟩
    · exact ⟨as, h2 ▸ h1⟩
    · exact ⟨as ++ [a], .snoc h1 h2⟩

theorem pool_grows (h : Run k io w s) {n m : Nat} (hm : n ≤ m) :
    (s n).io.delivered <+: (s m).io.delivered ∧ (s n).io.accepted <+: (s m).io.accepted ∧
      (s n).io.arrived <+: (s m).io.arrived := by
  induction hm with
  | refl => exact ⟨List.prefix_refl _, List.prefix_refl _, List.prefix_refl _⟩
  | @step m hm ih =>
    rcases h.next m with h2 | ⟨a, h2⟩
    · rw [Nat.succ_eq_add_one, h2]; exact ih
    · rcases pool_io h2 with h3 | ⟨act, h3⟩
      · rw [Nat.succ_eq_add_one, h3]; exact ih
      · obtain ⟨e1, e2, e3⟩ := io_grows h3
        exact ⟨ih.1.trans e1, ih.2.1.trans e2, ih.2.2.trans e3⟩

/-- How things stand at any time in an undisturbed run. -/
structure Stand (k : Kind) (io : Transport.State) (w : Nat) (p : Pool.State) (ds sent : List Message) : Prop where
  reach : Reachable k p.io
  len : p.workers.length = w
  gone : p.io.rxAlive = false ∨ p.io.txAlive = false → ∀ x ∈ p.workers, ∃ r, x = .ended r
  delivered : p.io.delivered = io.delivered ++ ds
  accepted : p.io.accepted = io.accepted ++ sent
  answered : (sent ++ owed p.workers).Perm ((Spec.requests ds).map answerTo)
  works : ∀ x ∈ p.workers, x = .idle ∨ (∃ r, x = .answering r) ∨
    ((∃ r, x = .ended r) ∧ p.io.reader.ended = true ∧ Over p.io)

theorem stand (hio : Reachable k io) (hx : io.rxAlive = true) (ht : io.txAlive = true) (h : Run k io w s)
    (hu : Spec.Undisturbed k io s) (n : Nat) : ∃ ds sent, Stand k io w (s n) ds sent := by
  obtain ⟨as, h1⟩ := pool_run h n
  obtain ⟨hr, hl, hg, hin, ds, sent, served, lost, failed, T⟩ := poolInv hio hx ht h1
  have hs := hu.stays n
  have hf : failed = [] := by
    cases hfl : failed with
    | nil => rfl
    | cons y l => exact absurd (T.broken (by simp [hfl])) (hu.writes n)
  subst hf
  rw [T.delivered, List.drop_left' rfl] at hs
  have hlost : lost = [] := by
    cases hll : lost with
    | nil => rfl
    | cons r l =>
      obtain ⟨a, id, b, h1, _⟩ := T.late r (by simp [hll])
      exact absurd (h1 ▸ by simp) (hs id)
  subst hlost
  refine ⟨ds, sent, hr, hl, hg, T.delivered, T.accepted, ?_, ?_⟩
  · exact (by simpa using T.answered : (sent ++ owed (s n).workers).Perm _).trans
      ((by simpa using T.received : served.Perm _).map _)
  · intro x hxm
    have h2 := hin x hxm
    cases x with
    | idle => exact .inl rfl
    | answering r => exact .inr (.inl ⟨r, rfl⟩)
    | stopping id => obtain ⟨i, h3⟩ := T.asked _ hxm rfl; exact absurd h3 (hs i)
    | leaving => obtain ⟨i, h3⟩ := T.asked _ hxm rfl; exact absurd h3 (hs i)
    | ended r =>
      refine .inr (.inr ⟨⟨r, rfl⟩, ?_⟩)
      rcases T.ends r hxm with ⟨h1, h2, _⟩ | h1 | ⟨_, id, h1⟩ | ⟨m, ⟨a, id, b, h1, _⟩, _⟩
      · exact ⟨h1, h2⟩
      · exact absurd rfl h1
      · exact absurd h1 (hs id)
      · exact absurd (h1 ▸ by simp) (hs id)
    | _ => exact h2.elim

/-! ### The writer -/

omit [Dbg] in
theorem writing_step {s s' : Transport.State} {a : Transport.Act} {r : Bytes} (h : Transport.Step k s a s')
    (hw : s.writer = .writing r) : (∃ r', s'.writer = .writing r' ∧ r'.length ≤ r.length) ∨ ∀ r', s'.writer ≠ .writing r' := by
  cases h with
  | accept m h1 => rw [hw] at h1; cases h1
  | close h1 => rw [hw] at h1; cases h1
  | write a b h1 =>
    rw [hw] at h1; cases h1
    exact .inl ⟨b, rfl, by simp⟩
  | written => exact .inr (by simp)
  | writeFails => exact .inr (by cases k <;> simp [writeError])
  | read x => cases x <;> exact .inl ⟨r, hw, Nat.le_refl _⟩
  | _ => exact .inl ⟨r, hw, Nat.le_refl _⟩

/-- The writer gets done with every message. -/
theorem writer_done (h : Run k io w s) (hs : Scheduled k s) (n : Nat) : ∃ m, n ≤ m ∧ ∀ r, (s m).io.writer ≠ .writing r := by
  suffices key : ∀ L n r, (s n).io.writer = .writing r → r.length ≤ L → ∃ m, n ≤ m ∧ ∀ r, (s m).io.writer ≠ .writing r by
    by_cases hn : ∃ r, (s n).io.writer = .writing r
    · obtain ⟨r, hr⟩ := hn
      exact key r.length n r hr (Nat.le_refl _)
    · exact ⟨n, Nat.le_refl _, fun r hr => hn ⟨r, hr⟩⟩
  intro L
  induction L with
  | zero =>
    intro n r hr hl
    apply Classical.byContradiction
    intro hno
    have hall : ∀ m, n ≤ m → (s m).io.writer = .writing [] := by
      intro m hm
      induction hm with
      | refl => rw [hr, List.length_eq_zero_iff.1 (Nat.le_zero.1 hl)]
      | @step m hm ih =>
        rcases h.next m with h2 | ⟨a, h2⟩
        · rw [Nat.succ_eq_add_one, h2]; exact ih
        · rcases pool_io h2 with h3 | ⟨act, h3⟩
          · rw [Nat.succ_eq_add_one, h3]; exact ih
          · rcases writing_step h3 ih with ⟨r', h4, h5⟩ | h4
            · rw [Nat.succ_eq_add_one, h4, List.length_eq_zero_iff.1 (Nat.le_zero.1 h5)]
            · exact absurd ⟨m + 1, Nat.le_succ_of_le hm, h4⟩ hno
    obtain ⟨m, hm, act, io', ha, h1, h2⟩ := hs .writer n fun m hm => ⟨_, .written, _, .inl rfl, .written _ (hall m hm), rfl⟩
    have h3 := hall (m + 1) (by omega)
    rw [h2] at h3
    have h4 := hall m hm
    rcases ha with rfl | ⟨bs, rfl⟩
    · cases h1; cases h3
    · cases h1 with
      | write a b h5 h6 =>
        rw [h4] at h5
        simp only [Writer.writing.injEq] at h5
        exact h6 (List.append_eq_nil_iff.1 h5.symm).1
  | succ L ih =>
    intro n r hr hl
    apply Classical.byContradiction
    intro hno
    have hall : ∀ m, n ≤ m → ∃ r', (s m).io.writer = .writing r' ∧ r'.length ≤ L + 1 := by
      intro m hm
      induction hm with
      | refl => exact ⟨r, hr, hl⟩
      | @step m hm ih =>
        obtain ⟨r0, i1, i2⟩ := ih
        rcases h.next m with h2 | ⟨a, h2⟩
        · rw [Nat.succ_eq_add_one, h2]; exact ⟨r0, i1, i2⟩
        · rcases pool_io h2 with h3 | ⟨act, h3⟩
          · rw [Nat.succ_eq_add_one, h3]; exact ⟨r0, i1, i2⟩
          · rcases writing_step h3 i1 with ⟨r', h4, h5⟩ | h4
            · exact ⟨r', h4, by omega⟩
            · exact absurd ⟨m + 1, Nat.le_succ_of_le hm, h4⟩ hno
    obtain ⟨m, hm, act, io', ha, h1, h2⟩ := hs .writer n fun m hm => by
      obtain ⟨r', h1, _⟩ := hall m hm
      cases r' with
      | nil => exact ⟨_, .written, _, .inl rfl, .written _ h1, rfl⟩
      | cons x r' => exact ⟨_, .write [x], _, .inr ⟨_, rfl⟩, .write _ [x] r' h1 (by simp), rfl⟩
    obtain ⟨r1, h3, h4⟩ := hall m hm
    rcases ha with rfl | ⟨bs, rfl⟩
    · refine hno ⟨m + 1, by omega, ?_⟩
      rw [h2]; cases h1; simp
    · cases h1 with
      | write a b h5 h6 =>
        rw [h3] at h5
        simp only [Writer.writing.injEq] at h5
        have : 0 < bs.length := List.length_pos_iff.2 h6
        subst h5
        obtain ⟨m', h7, h8⟩ := ih (m + 1) b (by rw [h2]) (by simp at h4; omega)
        exact hno ⟨m', by omega, h8⟩

section
variable (hio : Reachable k io) (hx : io.rxAlive = true) (ht : io.txAlive = true) (h : Run k io w s)
  (hu : Spec.Undisturbed k io s)
include hio hx ht h hu

/-- What all holds while a worker has something to send. -/
theorem holds_alive {n i : Nat} {x : App} (hi : (s n).workers[i]? = some x) (he : ∀ r, x ≠ .ended r) :
    (s n).io.rxAlive = true ∧ (s n).io.txAlive = true ∧ (s n).io.writer.ended = false := by
  obtain ⟨ds, sent, S⟩ := stand hio hx ht h hu n
  have hm := List.mem_of_getElem? hi
  have h1 : (s n).io.rxAlive = true := by
    cases h1 : (s n).io.rxAlive with
    | true => rfl
    | false => obtain ⟨r, h2⟩ := S.gone (.inl h1) x hm; exact absurd h2 (he r)
  have h2 : (s n).io.txAlive = true := by
    cases h1 : (s n).io.txAlive with
    | true => rfl
    | false => obtain ⟨r, h2⟩ := S.gone (.inr h1) x hm; exact absurd h2 (he r)
  refine ⟨h1, h2, ?_⟩
  have hwi := writeInv S.reach
  have hne := hu.writes n
  cases hw : (s n).io.writer with
  | idle => rfl
  | writing => rfl
  | done => rw [(C54_drained S.reach hw).1] at h2; cases h2
  | failed => simp only [WriteInv, hw] at hwi; rw [hw, hwi.1] at hne; exact absurd rfl hne
  | panicked => simp only [WriteInv, hw] at hwi; rw [hw, hwi.1] at hne; exact absurd rfl hne

/-- A worker that has something to send keeps it until it sends it. -/
theorem place_keeps {n i : Nat} {x : App} {μ : Message} (hi : (s n).workers[i]? = some x) (hm : toSend x = some μ) :
    (s (n + 1)).workers[i]? = some x ∨ Acts k (.sends i) (s n) (s (n + 1)) := by
  have he : ∀ r, x ≠ .ended r := by rintro r rfl; cases hm
  obtain ⟨_, _, hw⟩ := holds_alive hio hx ht h hu hi he
  have hrec : x.receives = false := by cases x <;> first | rfl | cases hm
  rcases h.next n with h1 | ⟨a, h1⟩
  · rw [h1]; exact .inl hi
  · rcases place_step h1 hi with h2 | ⟨l, y, b, m, io', h2, h3, h4, _⟩ | h2 | ⟨h2, _⟩ | ⟨_, h2⟩ | rfl
    · exact .inl h2
    · rw [h2, ← h3, getElem_here] at hi; cases hi; rw [hrec] at h4; cases h4
    · exact .inr h2
    · rw [hrec] at h2; cases h2
    · rw [hw] at h2; cases h2
    · cases hm

/-- What a worker has to send it sends. -/
theorem place_sends (hs : Scheduled k s) (hq : Queued k s) {n i : Nat} {x : App} {μ : Message}
    (hi : (s n).workers[i]? = some x) (hm : toSend x = some μ) :
    ∃ m, n ≤ m ∧ (s m).workers[i]? = some x ∧ Acts k (.sends i) (s m) (s (m + 1)) := by
  apply Classical.byContradiction
  intro hno
  have hall : ∀ m, n ≤ m → (s m).workers[i]? = some x := by
    intro m hnm
    induction hnm with
    | refl => exact hi
    | @step m hnm ih =>
      rcases place_keeps hio hx ht h hu ih hm with h1 | h1
      · exact h1
      · exact absurd ⟨m, hnm, ih, h1⟩ hno
  obtain ⟨m, h1, h2⟩ := hq i n fun m hm' => by
    obtain ⟨m', h1, h2⟩ := writer_done h hs m
    refine ⟨m', h1, ?_⟩
    have hp := hall m' (by omega)
    obtain ⟨_, h3, h4⟩ := holds_alive hio hx ht h hu hp (by rintro r rfl; cases hm)
    obtain ⟨a, b, h5, h6⟩ := split_at hp
    have hid : (s m').io.writer = .idle := by
      cases hw : (s m').io.writer with
      | idle => rfl
      | writing r => exact absurd hw (h2 r)
      | _ => rw [hw] at h4; cases h4
    exact ⟨_, a, x, b, μ, _, h5, h6, hm, .accept _ μ hid h3, rfl⟩
  exact hno ⟨m, h1, hall m h1, h2⟩

/-- What is owed is sent. -/
theorem owed_sent (hs : Scheduled k s) (hq : Queued k s) {n : Nat} {μ : Message} (hm : μ ∈ owed (s n).workers) :
    ∃ m, n ≤ m ∧ (s (m + 1)).io.accepted = (s m).io.accepted ++ [μ] := by
  obtain ⟨x, hxm, h1⟩ := List.mem_filterMap.1 hm
  obtain ⟨i, hi⟩ := List.getElem?_of_mem hxm
  obtain ⟨m, h2, h3, a, y, b, μ', io', h4, h5, h6, h7, h8⟩ := place_sends hio hx ht h hu hs hq hi h1
  refine ⟨m, h2, ?_⟩
  rw [h4, ← h5, getElem_here] at h3
  cases h3
  rw [h1] at h6
  cases h6
  rw [h8]
  cases h7
  rfl

open Classical in
/-- C132: requests come in for ever to workers that share a connection.  If the threads are scheduled fairly and no
worker that waits to send is passed over for ever, then every request that has been received at any time is answered:
later there is a time when, one for each, the answers are among those written. -/
theorem C132_answered (hs : Scheduled k s) (hq : Queued k s) (n : Nat) :
    ∃ m answers others, n ≤ m ∧ Spec.AnyOrder (Spec.requests ((s n).io.delivered.drop io.delivered.length)) answers ∧
      (answers ++ others).Perm ((s m).io.accepted.drop io.accepted.length) ∧
      (s m).io.out = (s m).io.accepted.flatMap Frame.write := by
  obtain ⟨ds, sent, S⟩ := stand hio hx ht h hu n
  have count : ∀ (μ : Message) c, c ≤ ((Spec.requests ds).map answerTo).count μ →
      ∃ m, n ≤ m ∧ c ≤ ((s m).io.accepted.drop io.accepted.length).count μ := by
    intro μ c
    induction c with
    | zero => exact fun _ => ⟨n, Nat.le_refl _, Nat.zero_le _⟩
    | succ c ih =>
      intro hc
      obtain ⟨m, hm, h1⟩ := ih (by omega)
      by_cases h2 : c + 1 ≤ ((s m).io.accepted.drop io.accepted.length).count μ
      · exact ⟨m, hm, h2⟩
      obtain ⟨ds', sent', S'⟩ := stand hio hx ht h hu m
      have h3 := S'.answered.count_eq μ
      obtain ⟨t, ht'⟩ := (pool_grows h hm).1
      rw [S.delivered, S'.delivered, List.append_assoc] at ht'
      obtain rfl := List.append_cancel_left ht'
      rw [S'.accepted, List.drop_left' rfl] at h1 h2
      rw [reqs_append, List.map_append, List.count_append, List.count_append] at h3
      have h4 : 0 < (owed (s m).workers).count μ := by omega
      obtain ⟨m', h5, h6⟩ := owed_sent hio hx ht h hu hs hq (List.count_pos_iff.1 h4)
      refine ⟨m' + 1, by omega, ?_⟩
      obtain ⟨u, hu'⟩ := (pool_grows h h5).2.1
      rw [h6, ← hu', S'.accepted, List.append_assoc, List.append_assoc, List.drop_left' rfl, List.count_append,
        List.count_append]
      simp only [List.count_singleton_self]
      omega
  have all : ∀ L : List Message, ∃ m, n ≤ m ∧ ∀ μ ∈ L, ((Spec.requests ds).map answerTo).count μ ≤
      ((s m).io.accepted.drop io.accepted.length).count μ := by
    intro L
    induction L with
    | nil => exact ⟨n, Nat.le_refl _, by simp⟩
    | cons μ L ih =>
      obtain ⟨m1, h1, h2⟩ := ih
      obtain ⟨m2, h3, h4⟩ := count μ _ (Nat.le_refl _)
      have mono : ∀ {a b} (ν : Message), a ≤ b → ((s a).io.accepted.drop io.accepted.length).count ν ≤
          ((s b).io.accepted.drop io.accepted.length).count ν := by
        intro a b ν hab
        obtain ⟨d1, t1, S1⟩ := stand hio hx ht h hu a
        obtain ⟨u, hu'⟩ := (pool_grows h hab).2.1
        rw [← hu', S1.accepted, List.append_assoc, List.drop_left' rfl, List.drop_left' rfl, List.count_append]
        omega
      refine ⟨max m1 m2, by omega, ?_⟩
      intro ν hν
      rcases List.mem_cons.1 hν with rfl | hν
      · exact Nat.le_trans h4 (mono _ (Nat.le_max_right _ _))
      · exact Nat.le_trans (h2 ν hν) (mono _ (Nat.le_max_left _ _))
  obtain ⟨m1, h1, h2⟩ := all ((Spec.requests ds).map answerTo)
  obtain ⟨m, h3, h4⟩ := writer_done h hs m1
  obtain ⟨ds', sent', S'⟩ := stand hio hx ht h hu m
  obtain ⟨d1, t1, S1⟩ := stand hio hx ht h hu m1
  obtain ⟨u, hu'⟩ := (pool_grows h h3).2.1
  rw [S1.accepted, S'.accepted, List.append_assoc] at hu'
  obtain rfl := List.append_cancel_left hu'
  obtain ⟨o, ho⟩ := take_out (l := (Spec.requests ds).map answerTo) (r := t1 ++ u) (by
    intro μ
    by_cases hμ : μ ∈ (Spec.requests ds).map answerTo
    · have := h2 μ hμ
      rw [S1.accepted, List.drop_left' rfl] at this
      rw [List.count_append]; omega
    · rw [List.count_eq_zero.2 hμ]; exact Nat.zero_le _)
  refine ⟨m, (Spec.requests ds).map answerTo, o, by omega, ?_, ?_, ?_⟩
  · rw [S.delivered, List.drop_left' rfl]
    exact anyOrder (.refl _) (.refl _)
  · rw [S'.accepted, List.drop_left' rfl]
    exact ho
  · have hwi := writeInv S'.reach
    have hne := hu.writes m
    cases hw : (s m).io.writer with
    | idle => simp only [WriteInv, hw] at hwi; exact hwi
    | done => exact (C54_drained S'.reach hw).2
    | writing r => exact absurd hw (h4 r)
    | failed => simp only [WriteInv, hw] at hwi; rw [hw, hwi.1] at hne; exact absurd rfl hne
    | panicked => simp only [WriteInv, hw] at hwi; rw [hw, hwi.1] at hne; exact absurd rfl hne

/-- What has been carried has been received, or could be read. -/
theorem heard_or_more (hw : 0 < w) {n : Nat} {bs : Bytes} {ms : List Message} {rest : Bytes} (ha : (s n).io.arrived = bs ++ rest)
    (hc : Spec.Carries bs ms) :
    ms <+: (s n).io.delivered ∨ Message.notification .exit ∈ (s n).io.delivered ∨
      ((s n).io.reader.ended = false ∧ ((s n).io.reader = .reading → ∃ io', Transport.Step k (s n).io .read io') ∧
        (s n).io.delivered.length < ms.length ∧ ∀ x ∈ (s n).workers, x = .idle ∨ ∃ r, x = .answering r) := by
  apply Classical.byContradiction
  intro hno
  have n1 : ¬ ms <+: (s n).io.delivered := fun h => hno (.inl h)
  have n2 : Message.notification .exit ∉ (s n).io.delivered := fun h => hno (.inr (.inl h))
  obtain ⟨ds, sent, S⟩ := stand hio hx ht h hu n
  have over : ¬ Over (s n).io := by
    rintro (h1 | ⟨stop, h1⟩)
    · exact n2 h1
    · refine n1 ?_
      unfold Spec.Input at h1
      cases he : (s n).io.inEnd with
      | some b =>
        simp only [he] at h1
        rw [ha, readAll_carries hc] at h1
        exact (Prod.mk.inj h1).1 ▸ List.prefix_append _ _
      | none =>
        simp only [he] at h1
        have h2 := h1 [] false
        rw [ha, List.append_nil, readAll_carries hc] at h2
        exact (Prod.mk.inj h2).1 ▸ List.prefix_append _ _
  have hwk : ∀ x ∈ (s n).workers, x = .idle ∨ ∃ r, x = .answering r := by
    intro x hxm
    rcases S.works x hxm with h1 | h1 | ⟨_, _, h1⟩
    · exact .inl h1
    · exact .inr h1
    · exact absurd h1 over
  have hlen : (s n).io.delivered.length < ms.length := by
    obtain ⟨⟨used, ps, hu', _, hc'⟩, _, _⟩ := (readInv S.reach).1
    have e1 := readAll_carries hc rest false
    have e2 := readAll_carries hc' (s n).io.unread false
    rw [← ha, hu', e2] at e1
    have e3 := (Prod.mk.inj e1).1
    apply Classical.byContradiction
    intro hl
    refine n1 (List.prefix_of_prefix_length_le (l₃ := ms ++ (readAll (⟨rest, false⟩ : Flat)).1) (List.prefix_append _ _) ?_ (by omega))
    rw [← e3, List.append_assoc]
    exact List.prefix_append _ _
  refine hno (.inr (.inr ⟨?_, ?_, hlen, hwk⟩))
  · cases he : (s n).io.reader.ended with
    | false => rfl
    | true =>
      refine absurd (over_closed S.reach he ?_) over
      cases hrx : (s n).io.rxAlive with
      | true => rfl
      | false =>
        obtain ⟨x, hxm⟩ := List.exists_mem_of_ne_nil _ (List.length_pos_iff.1 (S.len ▸ hw : 0 < (s n).workers.length))
        obtain ⟨r, h1⟩ := S.gone (.inl hrx) x hxm
        rcases hwk x hxm with h2 | ⟨q, h2⟩ <;> rw [h1] at h2 <;> cases h2
  · intro hrd
    apply Classical.byContradiction
    intro hnr
    obtain ⟨⟨used, ps, hu', hp, hc'⟩, _, _⟩ := (readInv S.reach).1
    simp only [Spec.Pending, hrd] at hp
    subst hp
    rw [List.append_nil] at hc'
    have e1 := readAll_carries hc rest false
    rw [← ha, hu', readAll_carries hc', nothing_whole hrd hnr] at e1
    simp only [List.append_nil, Prod.mk.injEq] at e1
    exact n1 (e1.1 ▸ List.prefix_append _ _)

/-- C132: and every message that has come in is received, up to an exit notification.  For that the scheduler alone is
enough. -/
theorem C132_heard (hs : Scheduled k s) (hw : 0 < w) {n : Nat} {bs : Bytes} {ms : List Message} {rest : Bytes}
    (ha : (s n).io.arrived = bs ++ rest) (hc : Spec.Carries bs ms) :
    ∃ m, n ≤ m ∧ (ms <+: (s m).io.delivered ∨ Message.notification .exit ∈ (s m).io.delivered) := by
  suffices key : ∀ d n rest, (s n).io.arrived = bs ++ rest → ms.length ≤ (s n).io.delivered.length + d →
      ∃ m, n ≤ m ∧ (ms <+: (s m).io.delivered ∨ Message.notification .exit ∈ (s m).io.delivered) from
    key ms.length n rest ha (by omega)
  intro d
  induction d with
  | zero =>
    intro n rest ha hl
    rcases heard_or_more hio hx ht h hu hw ha hc with h1 | h1 | ⟨_, _, h1, _⟩
    · exact ⟨n, Nat.le_refl _, .inl h1⟩
    · exact ⟨n, Nat.le_refl _, .inr h1⟩
    · omega
  | succ d ih =>
    intro n rest ha hl
    apply Classical.byContradiction
    intro hno
    have arr : ∀ m, n ≤ m → ∃ rest, (s m).io.arrived = bs ++ rest := by
      intro m hm
      obtain ⟨t, h1⟩ := (pool_grows h hm).2.2
      exact ⟨rest ++ t, by rw [← h1, ha, List.append_assoc]⟩
    have more : ∀ m, n ≤ m → (s m).io.reader.ended = false ∧
        ((s m).io.reader = .reading → ∃ io', Transport.Step k (s m).io .read io') ∧
        ∀ x ∈ (s m).workers, x = .idle ∨ ∃ r, x = .answering r := by
      intro m hm
      obtain ⟨rest, ha⟩ := arr m hm
      rcases heard_or_more hio hx ht h hu hw ha hc with h1 | h1 | ⟨h1, h2, _, h3⟩
      · exact absurd ⟨m, hm, .inl h1⟩ hno
      · exact absurd ⟨m, hm, .inr h1⟩ hno
      · exact ⟨h1, h2, h3⟩
    have same : ∀ m, n ≤ m → (s m).io.delivered = (s n).io.delivered := by
      intro m hm
      obtain ⟨rest, ha⟩ := arr m hm
      have h1 := (pool_grows h hm).1
      refine (h1.eq_of_length_le ?_).symm
      apply Classical.byContradiction
      intro hl'
      obtain ⟨m', h2, h3⟩ := ih m rest ha (by omega)
      exact hno ⟨m', by omega, h3⟩
    have alive : ∀ m, n ≤ m → (s m).io.rxAlive = true := by
      intro m hm
      obtain ⟨ds, sent, S⟩ := stand hio hx ht h hu m
      obtain ⟨x, hxm⟩ := List.exists_mem_of_ne_nil _ (List.length_pos_iff.1 (S.len ▸ hw : 0 < (s m).workers.length))
      obtain ⟨i, hi⟩ := List.getElem?_of_mem hxm
      refine (holds_alive hio hx ht h hu hi ?_).1
      rintro r rfl
      rcases (more m hm).2.2 _ hxm with h2 | ⟨q, h2⟩ <;> cases h2
    -- the reader has a message to hand over
    have ⟨m0, hm0, μ, hμ⟩ : ∃ m, n ≤ m ∧ ∃ μ, (s m).io.reader = .sending μ := by
      apply Classical.byContradiction
      intro hns
      have hrd : ∀ m, n ≤ m → (s m).io.reader = .reading := by
        intro m hm
        have h1 := (more m hm).1
        cases h2 : (s m).io.reader with
        | reading => rfl
        | sending μ => exact absurd ⟨m, hm, μ, h2⟩ hns
        | _ => rw [h2] at h1; cases h1
      obtain ⟨m, hm, io', h1, h2⟩ := hs .reader n fun m hm => by
        obtain ⟨io', h1⟩ := (more m hm).2.1 (hrd m hm)
        exact ⟨_, io', h1, rfl⟩
      have h3 := hrd (m + 1) (by omega)
      rw [h2] at h3
      cases h1 with
      | read r => cases r <;> first | cases h3 | (cases k <;> cases h3)
    have wait : ∀ m, m0 ≤ m → (s m).io.reader = .sending μ := by
      intro m hm
      induction hm with
      | refl => exact hμ
      | @step m hm ih' =>
        have hnm : n ≤ m := Nat.le_trans hm0 hm
        rcases h.next m with h2 | ⟨a, h2⟩
        · rw [Nat.succ_eq_add_one, h2]; exact ih'
        · rcases pool_io h2 with h3 | ⟨act, h3⟩
          · rw [Nat.succ_eq_add_one, h3]; exact ih'
          · have h4 := same (m + 1) (by omega)
            have h5 := same m hnm
            have h6 := alive m hnm
            rw [Nat.succ_eq_add_one]
            generalize s (m + 1) = q at h3 h4
            generalize q.io = q at h3 h4
            cases h3 with
            | read r h7 => rw [ih'] at h7; cases h7
            | deliver μ' =>
              simp only [h5] at h4
              exact absurd (congrArg List.length h4) (by simp)
            | undeliverable _ _ h7 => rw [h6] at h7; cases h7
            | _ => exact ih'
    -- some worker gets idle
    have ⟨m1, hm1, i, hi1⟩ : ∃ m, m0 ≤ m ∧ ∃ i : Nat, (s m).workers[i]? = some .idle := by
      apply Classical.byContradiction
      intro hni
      have busy : ∀ m, m0 ≤ m → ∀ {i : Nat} {x : App}, (s m).workers[i]? = some x → ∃ r, x = .answering r := by
        intro m hm i x hi
        rcases (more m (Nat.le_trans hm0 hm)).2.2 x (List.mem_of_getElem? hi) with rfl | h1
        · exact absurd ⟨m, hm, i, hi⟩ hni
        · exact h1
      have first : ∀ m, m0 ≤ m → ∃ r, (s m).workers[0]? = some (.answering r) := by
        intro m hm
        obtain ⟨ds, sent, S⟩ := stand hio hx ht h hu m
        have hi := List.getElem?_eq_getElem (S.len ▸ hw : 0 < (s m).workers.length)
        obtain ⟨r, h1⟩ := busy m hm hi
        exact ⟨r, h1 ▸ hi⟩
      obtain ⟨m2, hm2, h2⟩ := writer_done h hs m0
      have ready : ∀ m, m2 ≤ m → (s m).io.writer = .idle := by
        intro m hm
        induction hm with
        | refl =>
          obtain ⟨r, h3⟩ := first m2 hm2
          obtain ⟨_, _, h4⟩ := holds_alive hio hx ht h hu h3 (by simp)
          cases hwr : (s m2).io.writer with
          | idle => rfl
          | writing r => exact absurd hwr (h2 r)
          | _ => rw [hwr] at h4; cases h4
        | @step m hm ih' =>
          have hm' : m0 ≤ m := Nat.le_trans hm2 hm
          obtain ⟨r, h3⟩ := first m hm'
          obtain ⟨_, h4, _⟩ := holds_alive hio hx ht h hu h3 (by simp)
          rcases h.next m with h5 | ⟨a, h5⟩
          · rw [Nat.succ_eq_add_one, h5]; exact ih'
          · have hb := fun {i x} => busy (m + 1) (Nat.le_succ_of_le hm') (i := i) (x := x)
            have hsm := same (m + 1) (by omega)
            have hsm' := same m (Nat.le_trans hm0 hm')
            rw [Nat.succ_eq_add_one]
            generalize s (m + 1) = q at h5 hb hsm
            have hbm := fun {i x} => busy m hm' (i := i) (x := x)
            generalize s m = p at h5 ih' h4 hsm' hbm
            cases h5 with
            | io h6 h7 =>
              cases h6 with
              | accept => cases h7
              | close _ h8 => rw [h4] at h8; cases h8
              | write _ _ h8 => rw [ih'] at h8; cases h8
              | written h8 => rw [ih'] at h8
              | writeFails _ h8 => rw [ih'] at h8; cases h8
              | read r => cases r <;> exact ih'
              | _ => exact ih'
            | recv _ h6 =>
              cases h6 with
              | deliver => exact ih'
            | @send io1 io' l b y μ' h6 h7 =>
              obtain ⟨r, rfl⟩ := hbm (getElem_here l b y)
              obtain ⟨r', h8⟩ := hb (getElem_here l b _)
              cases h8
            | _ => exact ih'
      obtain ⟨m, hm, l, y, b, m', io', h3, h4, h5, h6, h7⟩ := hs (.sends 0) m2 fun m hm => by
        obtain ⟨r, h3⟩ := first m (Nat.le_trans hm2 hm)
        obtain ⟨_, h4, _⟩ := holds_alive hio hx ht h hu h3 (by simp)
        obtain ⟨a, b, h5, h6⟩ := split_at h3
        exact ⟨_, a, _, b, reply r, _, h5, h6, rfl, .accept _ _ (ready m hm) h4, rfl⟩
      have h8 := ready (m + 1) (by omega)
      rw [h7] at h8
      cases h6
      cases h8
    have idle : ∀ m, m1 ≤ m → (s m).workers[i]? = some .idle := by
      intro m hm
      induction hm with
      | refl => exact hi1
      | @step m hm ih' =>
        have hnm : n ≤ m := Nat.le_trans hm0 (Nat.le_trans hm1 hm)
        rcases h.next m with h2 | ⟨a, h2⟩
        · rw [Nat.succ_eq_add_one, h2]; exact ih'
        · rcases place_step h2 ih' with h3 | ⟨l, y, b, m', io', h3, h4, _, h5, h6⟩ | ⟨l, y, b, m', io', h3, h4, h5, _⟩ | ⟨_, h3⟩ |
            ⟨⟨_, h3⟩, _⟩ | h3
          · exact h3
          · have h7 := same (m + 1) (by omega)
            rw [h6] at h7
            cases h5
            simp only [same m hnm] at h7
            exact absurd (congrArg List.length h7) (by simp)
          · rw [h3, ← h4, getElem_here] at ih'; cases ih'; cases h5
          · rw [(more m hnm).1] at h3; cases h3
          · cases h3
          · cases h3
    obtain ⟨m, hm, l, y, b, m', io', h3, h4, _, h5, h6⟩ := hs (.receives i) m1 fun m hm => by
      obtain ⟨a, b, h5, h6⟩ := split_at (idle m hm)
      exact ⟨_, a, .idle, b, μ, _, h5, h6, rfl, .deliver _ μ (wait m (by omega)) (alive m (by omega)), rfl⟩
    have h7 := same (m + 1) (by omega)
    rw [h6] at h7
    cases h5
    simp only [same m (by omega)] at h7
    exact absurd (congrArg List.length h7) (by simp)

end

/-! ### One request after the other -/

/-- The connection after a request has come in and been answered. -/
def oneMore (io : Transport.State) (f : Bytes) (r : Request) : Transport.State :=
  { io with arrived := io.arrived ++ f, delivered := io.delivered ++ [.request r], accepted := io.accepted ++ [reply r],
            out := io.out ++ Frame.write (reply r) }

/-- The connection after so many. -/
def manyMore (io : Transport.State) (f : Nat → Bytes) (rq : Nat → Request) : Nat → Transport.State
  | 0 => io
  | j + 1 => oneMore (manyMore io f rq j) (f j) (rq j)

/-- On the way from one to the next, while the worker after those of `a` deals with it. -/
def onTheWay (io : Transport.State) (f : Bytes) (r : Request) (a b : List App) : Nat → Pool.State
  | 0 => ⟨io, a ++ .idle :: b⟩
  | 1 => ⟨{ io with arrived := io.arrived ++ f, unread := f }, a ++ .idle :: b⟩
  | 2 => ⟨{ io with arrived := io.arrived ++ f, reader := .sending (.request r) }, a ++ .idle :: b⟩
  | 3 => ⟨{ io with arrived := io.arrived ++ f, delivered := io.delivered ++ [.request r] }, a ++ .answering r :: b⟩
  | 4 => ⟨{ io with arrived := io.arrived ++ f, delivered := io.delivered ++ [.request r],
                    accepted := io.accepted ++ [reply r], writer := .writing (Frame.write (reply r)) }, a ++ .idle :: b⟩
  | _ => ⟨{ io with arrived := io.arrived ++ f, delivered := io.delivered ++ [.request r],
                    accepted := io.accepted ++ [reply r], writer := .writing [], out := io.out ++ Frame.write (reply r) },
           a ++ .idle :: b⟩

/-- All the time. -/
def allTheTime (io : Transport.State) (f : Nat → Bytes) (rq : Nat → Request) (a b : List App) (n : Nat) : Pool.State :=
  onTheWay (manyMore io f rq (n / 6)) (f (n / 6)) (rq (n / 6)) a b (n % 6)

variable {f : Nat → Bytes} {rq : Nat → Request} {a b : List App}

omit [Dbg] in
theorem manyMore_rests (hio : Spec.Resting io) (j : Nat) : Spec.Resting (manyMore io f rq j) := by
  induction j with
  | zero => exact hio
  | succ j ih =>
    obtain ⟨h1, h2, h3, h4, h5, h6⟩ := ih
    exact ⟨h1, h2, h3, h4, h5, h6⟩

omit [Dbg] in
theorem manyMore_all (j : Nat) : (manyMore io f rq j).delivered = io.delivered ++ ((List.range j).map rq).map .request ∧
    (manyMore io f rq j).accepted = io.accepted ++ ((List.range j).map rq).map reply := by
  induction j with
  | zero => simp [manyMore]
  | succ j ih => simp [manyMore, oneMore, ih.1, ih.2, List.range_succ]

theorem way_step {io : Transport.State} {f : Bytes} {r : Request} (hio : Spec.Resting io) (hc : Spec.Carries f [.request r])
    (hn : ∀ id, r ≠ .shutdown id) (t : Nat) (ht : t < 5) :
    ∃ act, Pool.Step k (onTheWay io f r a b t) act (onTheWay io f r a b (t + 1)) := by
  obtain ⟨hr, hu, hi, hx, hw, htx⟩ := hio
  obtain ⟨b0, f0, e0, c0, r0⟩ := carries_last (k := k) (ms := []) hc
  have : b0 = [] := by
    generalize h0 : ([] : List Message) = l at c0
    cases c0 with
    | nil => rfl
    | snoc => simp at h0
  subst this
  rw [List.nil_append] at e0
  subst e0
  have ans : App.answering r = Pool.onRecv .idle (some (.request r)) := (hears hn).symm
  match t, ht with
  | 0, _ =>
    refine ⟨.peer, ?_⟩
    have := Pool.Step.io (k := k) (p := ⟨io, a ++ .idle :: b⟩) (act := .peer) (.arrive io f hi) rfl
    rw [hu, List.nil_append] at this
    exact this
  | 1, _ =>
    refine ⟨.thread, ?_⟩
    have := Pool.Step.io (k := k) (p := onTheWay io f r a b 1) (act := .thread)
      (r0 { io with arrived := io.arrived ++ f, unread := f } hr [] (by simp)) rfl
    simpa [onTheWay, hu] using this
  | 2, _ =>
    refine ⟨.worker, ?_⟩
    have := Pool.Step.recv (k := k) (a := a) (b := b) (x := .idle) rfl
      (.deliver { io with arrived := io.arrived ++ f, reader := .sending (.request r) } (.request r) rfl hx)
    rw [← ans] at this
    simpa [onTheWay, afterSend, isExit, hr] using this
  | 3, _ =>
    refine ⟨.worker, ?_⟩
    exact Pool.Step.send (k := k) (a := a) (b := b) (x := .answering r) rfl
      (.accept { io with arrived := io.arrived ++ f, delivered := io.delivered ++ [.request r] } (reply r) hw htx)
  | 4, _ =>
    refine ⟨.thread, ?_⟩
    have hne : Frame.write (reply r) ≠ [] := by
      intro h
      have := congrArg List.length h
      simp [Frame.write, Frame.frame, utf8] at this
      exact absurd this.1 (by decide)
    exact Pool.Step.io (k := k) (p := onTheWay io f r a b 4) (act := .thread)
      (.write { io with arrived := io.arrived ++ f, delivered := io.delivered ++ [.request r],
                        accepted := io.accepted ++ [reply r], writer := .writing (Frame.write (reply r)) }
        (Frame.write (reply r)) [] (by simp) hne) rfl

omit [Dbg] in
theorem way_last {io : Transport.State} {f : Bytes} {r : Request} (hio : Spec.Resting io) :
    Transport.Step k (onTheWay io f r a b 5).io .written (oneMore io f r) := by
  obtain ⟨hr, hu, hi, hx, hw, htx⟩ := hio
  have := Transport.Step.written (k := k) (onTheWay io f r a b 5).io rfl
  simpa [onTheWay, oneMore, ← hw] using this

omit [Dbg] in
theorem all_next (n t : Nat) (h : n % 6 = t) (ht : t < 5) : allTheTime io f rq a b (n + 1) =
    onTheWay (manyMore io f rq (n / 6)) (f (n / 6)) (rq (n / 6)) a b (t + 1) := by
  have e1 : (n + 1) / 6 = n / 6 := by omega
  have e2 : (n + 1) % 6 = t + 1 := by omega
  unfold allTheTime
  rw [e1, e2]

omit [Dbg] in
theorem all_round (n : Nat) (h : n % 6 = 5) : allTheTime io f rq a b (n + 1) =
    ⟨oneMore (manyMore io f rq (n / 6)) (f (n / 6)) (rq (n / 6)), a ++ .idle :: b⟩ := by
  have e1 : (n + 1) / 6 = n / 6 + 1 := by omega
  have e2 : (n + 1) % 6 = 0 := by omega
  unfold allTheTime
  rw [e1, e2]
  rfl

theorem all_step (hio : Spec.Resting io) (hc : ∀ j, Spec.Carries (f j) [.request (rq j)]) (hn : ∀ j id, rq j ≠ .shutdown id)
    (n : Nat) : ∃ act, Pool.Step k (allTheTime io f rq a b n) act (allTheTime io f rq a b (n + 1)) := by
  have hlt : n % 6 < 6 := Nat.mod_lt _ (by omega)
  rcases Nat.lt_or_ge (n % 6) 5 with h | h
  · rw [all_next n _ rfl h]
    exact way_step (manyMore_rests hio _) (hc _) (hn _) _ h
  · have h5 : n % 6 = 5 := by omega
    rw [all_round n h5]
    refine ⟨.thread, ?_⟩
    unfold allTheTime
    rw [h5]
    exact .io (way_last (manyMore_rests hio _)) rfl

/-- The reader thread, and each worker and the writer in their turn. -/
theorem all_scheduled (hio : Spec.Resting io) (hc : ∀ j, Spec.Carries (f j) [.request (rq j)]) : ∀ i n,
    (∀ m, n ≤ m → ∃ q, Acts k i (allTheTime io f rq a b m) q) →
    ∃ m, n ≤ m ∧ Acts k i (allTheTime io f rq a b m) (allTheTime io f rq a b (m + 1)) := by
  intro i n hall
  have at0 : allTheTime io f rq a b (6 * n) = ⟨manyMore io f rq n, a ++ .idle :: b⟩ := by
    unfold allTheTime
    rw [Nat.mul_mod_right, Nat.mul_div_cancel_left _ (by omega)]
    rfl
  have hre := manyMore_rests (f := f) (rq := rq) hio n
  cases i with
  | reader =>
    have e1 : (6 * n + 1) % 6 = 1 := by omega
    have e2 : (6 * n + 1) / 6 = n := by omega
    refine ⟨6 * n + 1, by omega, ?_⟩
    rw [all_next _ _ e1 (by omega)]
    unfold allTheTime
    rw [e1, e2]
    obtain ⟨b0, f0, e0, c0, r0⟩ := carries_last (k := k) (ms := []) (hc n)
    have : b0 = [] := by
      generalize h0 : ([] : List Message) = l at c0
      cases c0 with
      | nil => rfl
      | snoc => simp at h0
    subst this
    rw [List.nil_append] at e0
    refine ⟨_, r0 (onTheWay (manyMore io f rq n) (f n) (rq n) a b 1).io hre.1 [] (by simp [onTheWay, e0]), ?_⟩
    simp [onTheWay, hre.2]
  | writer =>
    obtain ⟨q, act, io', h1, h2, _⟩ := hall (6 * n) (by omega)
    rw [at0] at h2
    have hw := hre.5
    rcases h1 with rfl | ⟨bs, rfl⟩
    · cases h2 with
      | written h3 => rw [hw] at h3; cases h3
    · cases h2 with
      | write _ _ h3 => rw [hw] at h3; cases h3
  | receives i =>
    obtain ⟨q, _, _, _, _, _, _, _, _, h2, _⟩ := hall (6 * n) (by omega)
    rw [at0] at h2
    cases h2 with
    | deliver _ h3 => rw [hre.1] at h3; cases h3
  | sends i =>
    have e1 : (6 * n + 4) % 6 = 4 := by omega
    obtain ⟨q, _, _, _, _, _, _, _, _, h2, _⟩ := hall (6 * n + 4) (by omega)
    unfold allTheTime at h2
    rw [e1] at h2
    cases h2 with
    | accept _ h3 => cases h3

omit [Dbg] in
theorem all_writes (hio : Spec.Resting io) (n : Nat) : (allTheTime io f rq a b n).io.writer ≠ writeError k := by
  have hw := (manyMore_rests (f := f) (rq := rq) hio (n / 6)).5
  unfold allTheTime onTheWay
  split <;> cases k <;> simp [writeError, hw]

omit [Dbg] in
theorem all_heard (n : Nat) : ∃ j, (allTheTime io f rq a b n).io.delivered = io.delivered ++ ((List.range j).map rq).map .request := by
  have h1 := (manyMore_all (io := io) (f := f) (rq := rq) (n / 6)).1
  have h2 := (manyMore_all (io := io) (f := f) (rq := rq) (n / 6 + 1)).1
  unfold allTheTime onTheWay
  split <;> first | exact ⟨_, h1⟩ | exact ⟨_, h2⟩

omit [Dbg] in
theorem all_stays (hn : ∀ j id, rq j ≠ .shutdown id) (n : Nat) :
    Spec.NoShutdown ((allTheTime io f rq a b n).io.delivered.drop io.delivered.length) := by
  obtain ⟨j, h⟩ := all_heard (io := io) (f := f) (rq := rq) (a := a) (b := b) n
  rw [h, List.drop_left' rfl]
  intro id hm
  simp only [List.map_map, List.mem_map, Function.comp_apply] at hm
  obtain ⟨i, _, h1⟩ := hm
  exact hn i id (Message.request.inj h1)

/-- C132: such runs there are: for any endless sequence of requests there is a run, fair in both ways, in which they all
come in and are received. -/
theorem C132_exists (hio : Spec.Resting io) (hc : ∀ j, Spec.Carries (f j) [.request (rq j)])
    (hn : ∀ j id, rq j ≠ .shutdown id) (w : Nat) :
    ∃ s, Run k io (w + 1) s ∧ Spec.Undisturbed k io s ∧ Scheduled k s ∧ Queued k s ∧
      ∀ j, ∃ m, (s m).io.delivered = io.delivered ++ ((List.range j).map rq).map .request := by
  refine ⟨allTheTime io f rq [] (List.replicate w .idle), ⟨?_, fun i => .inr (all_step hio hc hn i)⟩,
    ⟨all_writes hio, all_stays hn⟩, all_scheduled hio hc, ?_, ?_⟩
  · simp [allTheTime, onTheWay, manyMore, Pool.start, List.replicate_succ]
  · intro i n hall
    have hi : i = 0 := by
      obtain ⟨m, _, q, l, x, r, μ, io', h1, h2, h3, _⟩ := hall n (Nat.le_refl _)
      cases i with
      | zero => rfl
      | succ i =>
        exfalso
        obtain ⟨y, l, rfl⟩ := List.exists_cons_of_length_eq_add_one h2
        have hm : x ∈ List.replicate w App.idle := by
          have : (y :: l ++ x :: r).tail = List.replicate w App.idle := by
            rw [← h1]
            unfold allTheTime onTheWay
            split <;> rfl
          rw [← this]
          simp
        rw [List.eq_of_mem_replicate hm] at h3
        cases h3
    subst hi
    have e1 : (6 * n + 3) % 6 = 3 := by omega
    refine ⟨6 * n + 3, by omega, ?_⟩
    rw [all_next _ _ e1 (by omega)]
    unfold allTheTime
    rw [e1]
    have hre := manyMore_rests (f := f) (rq := rq) hio ((6 * n + 3) / 6)
    exact ⟨[], .answering _, _, _, _, rfl, rfl, rfl, .accept _ _ hre.5 hre.6, rfl⟩
  · intro j
    refine ⟨6 * j, ?_⟩
    unfold allTheTime
    rw [Nat.mul_mod_right, Nat.mul_div_cancel_left _ (by omega)]
    exact manyMore_all j |>.1

/-- C132: without the second kind of fairness one request can wait for ever: if there are at least two workers, then for
any request, and any endless sequence of requests after it, there is a run in which no thread that could act all the
time never does, all those other requests are received and answered, and the worker that has received the first is still
about to send the answer. -/
theorem C132_starves (hio : Spec.Resting io) {f0 : Bytes} {r0 : Request} (hc0 : Spec.Carries f0 [.request r0])
    (hn0 : ∀ id, r0 ≠ .shutdown id) (hc : ∀ j, Spec.Carries (f j) [.request (rq j)]) (hn : ∀ j id, rq j ≠ .shutdown id) (w : Nat) :
    ∃ s, Run k io (w + 2) s ∧ Spec.Undisturbed k io s ∧ Scheduled k s ∧
      (∀ j, ∃ m sent, (s m).io.delivered = io.delivered ++ (r0 :: (List.range j).map rq).map .request ∧
        (s m).io.accepted = io.accepted ++ sent ∧ Spec.AnyOrder ((List.range j).map rq) sent ∧
        (s m).io.out = io.out ++ sent.flatMap Frame.write) ∧
      ∀ m, 3 ≤ m → (s m).workers[0]? = some (.answering r0) ∧
        ∃ j, (s m).io.accepted = io.accepted ++ ((List.range j).map rq).map reply := by
  let io3 := (onTheWay io f0 r0 [] (.idle :: List.replicate w .idle) 3).io
  have hr3 : Spec.Resting io3 := ⟨hio.1, hio.2, hio.3, hio.4, hio.5, hio.6⟩
  let go := allTheTime io3 f rq [.answering r0] (List.replicate w .idle)
  let s : Nat → Pool.State := fun n =>
    if n < 3 then onTheWay io f0 r0 [] (.idle :: List.replicate w .idle) n else go (n - 3)
  have later : ∀ n, s (n + 3) = go n := by
    intro n
    simp only [s]
    rw [if_neg (by omega)]
    rfl
  have meet : go 0 = onTheWay io f0 r0 [] (.idle :: List.replicate w .idle) 3 := rfl
  have late : ∀ {m}, 3 ≤ m → ∃ n, m = n + 3 := fun h => ⟨_, (Nat.sub_add_cancel h).symm⟩
  refine ⟨s, ⟨?_, ?_⟩, ⟨?_, ?_⟩, ?_, ?_, ?_⟩
  · simp [s, onTheWay, Pool.start, List.replicate_succ]
  · intro i
    refine .inr ?_
    rcases Nat.lt_or_ge i 3 with h | h
    · have e : s (i + 1) = onTheWay io f0 r0 [] (.idle :: List.replicate w .idle) (i + 1) := by
        rcases Nat.lt_or_ge (i + 1) 3 with h' | h'
        · simp only [s]; rw [if_pos h']
        · obtain rfl : i = 2 := by omega
          exact later 0
      rw [e]
      simp only [s]
      rw [if_pos h]
      exact way_step hio hc0 hn0 i (by omega)
    · obtain ⟨n, rfl⟩ := late h
      rw [later, show n + 3 + 1 = n + 1 + 3 by omega, later]
      exact all_step hr3 hc hn n
  · intro m
    rcases Nat.lt_or_ge m 3 with h | h
    · simp only [s]
      rw [if_pos h]
      match m, h with
      | 0, _ | 1, _ | 2, _ => simp only [onTheWay, hio.5]; cases k <;> simp [writeError]
    · obtain ⟨n, rfl⟩ := late h
      rw [later]
      exact all_writes hr3 n
  · intro m
    rcases Nat.lt_or_ge m 3 with h | h
    · simp only [s]
      rw [if_pos h]
      match m, h with
      | 0, _ | 1, _ | 2, _ => simp [onTheWay, Spec.NoShutdown]
    · obtain ⟨n, rfl⟩ := late h
      rw [later]
      obtain ⟨j, h1⟩ := all_heard (io := io3) (f := f) (rq := rq) (a := [.answering r0]) (b := List.replicate w .idle) n
      have h2 : (go n).io.delivered = io.delivered ++ (.request r0 :: ((List.range j).map rq).map .request) := by
        rw [h1]; simp [io3, onTheWay]
      rw [h2, List.drop_left' rfl]
      intro id hm
      rcases List.mem_cons.1 hm with h3 | h3
      · exact hn0 id (Message.request.inj h3).symm
      · simp only [List.map_map, List.mem_map, Function.comp_apply] at h3
        obtain ⟨i, _, h4⟩ := h3
        exact hn i id (Message.request.inj h4)
  · intro i n hall
    obtain ⟨m, h1, h2⟩ := all_scheduled (k := k) (a := [.answering r0]) (b := List.replicate w .idle) hr3 hc i n fun m hm => by
      have := hall (m + 3) (by omega)
      rwa [later] at this
    refine ⟨m + 3, by omega, ?_⟩
    rw [later, show m + 3 + 1 = m + 1 + 3 by omega, later]
    exact h2
  · intro j
    have e : s (6 * j + 3) = ⟨manyMore io3 f rq j, .answering r0 :: .idle :: List.replicate w .idle⟩ := by
      rw [later]
      simp only [go, allTheTime]
      rw [Nat.mul_mod_right, Nat.mul_div_cancel_left _ (by omega)]
      rfl
    obtain ⟨h1, h2⟩ := manyMore_all (io := io3) (f := f) (rq := rq) j
    refine ⟨6 * j + 3, ((List.range j).map rq).map reply, ?_, ?_, ?_, ?_⟩
    · rw [e]; simp only [h1]; simp [io3, onTheWay]
    · rw [e]; exact h2
    · refine anyOrder (rs' := (List.range j).map rq) ?_ (.refl _)
      have : ((List.range j).map rq).map reply = ((List.range j).map rq).map answerTo := by
        refine List.map_congr_left ?_
        intro r hr
        obtain ⟨i, _, rfl⟩ := List.mem_map.1 hr
        cases hq : rq i with
        | shutdown id => exact absurd hq (hn i id)
        | _ => rfl
      rw [this]
    · rw [e]
      have : ∀ j, (manyMore io3 f rq j).out = io.out ++ (((List.range j).map rq).map reply).flatMap Frame.write := by
        intro j
        induction j with
        | zero => simp [manyMore, io3, onTheWay]
        | succ j ih => simp [manyMore, oneMore, ih, List.range_succ]
      exact this j
  · intro m hm
    obtain ⟨n, rfl⟩ := late hm
    rw [later]
    refine ⟨?_, ?_⟩
    · simp only [go, allTheTime]
      unfold onTheWay
      split <;> rfl
    · have h1 := (manyMore_all (io := io3) (f := f) (rq := rq) (n / 6)).2
      have h2 := (manyMore_all (io := io3) (f := f) (rq := rq) (n / 6 + 1)).2
      simp only [go, allTheTime]
      unfold onTheWay
      split <;> first | exact ⟨_, h1⟩ | exact ⟨_, h2⟩

end

/-! ### Concrete cases -/

section
attribute [local instance] Ext.sample FloatText.sample Dbg.sample

/-- Two requests in turn, for ever. -/
def sampleTurns (j : Nat) : Request := if j % 2 = 0 then .workspaceBuildTargets (.i32 2) else .workspaceReload (.str "a")

/-- Their frames. -/
def sampleFrames (j : Nat) : Bytes := framed (if j % 2 = 0 then samplePool.take 1 else samplePool.drop 1)

theorem sampleTurns_carries (j : Nat) : Spec.Carries (sampleFrames j) [.request (sampleTurns j)] := by
  have h1 : Spec.Carries (framed (samplePool.take 1)) [.request (.workspaceBuildTargets (.i32 2))] :=
    carries_framed fun x hx => samplePool_ok x (List.mem_append_left _ (List.mem_of_mem_take hx))
  have h2 : Spec.Carries (framed (samplePool.drop 1)) [.request (.workspaceReload (.str "a"))] :=
    carries_framed fun x hx => samplePool_ok x (List.mem_append_left _ (List.mem_of_mem_drop hx))
  unfold sampleFrames sampleTurns
  split
  · exact h1
  · exact h2

theorem sampleTurns_stay (j : Nat) (id : RequestId) : sampleTurns j ≠ .shutdown id := by
  unfold sampleTurns
  split <;> simp

/-- Beside C132_exists, C132_answered and C132_heard: three workers and two requests in turn for ever: the first hundred
are received, and answered. -/
example (k : Kind) : ∃ s, Run k {} 3 s ∧ Scheduled k s ∧ Queued k s ∧
    (∃ m answers others, Spec.AnyOrder ((List.range 100).map sampleTurns) answers ∧
      (answers ++ others).Perm (s m).io.accepted ∧ (s m).io.out = (s m).io.accepted.flatMap write) ∧
    ∀ n bs ms rest, (s n).io.arrived = bs ++ rest → Spec.Carries bs ms →
      ∃ m, n ≤ m ∧ (ms <+: (s m).io.delivered ∨ Message.notification .exit ∈ (s m).io.delivered) := by
  obtain ⟨s, h1, h2, h3, h4, h5⟩ := C132_exists (k := k) resting_start sampleTurns_carries sampleTurns_stay 2
  refine ⟨s, h1, h3, h4, ?_, fun n bs ms rest ha hc => C132_heard (reachable_start k) rfl rfl h1 h2 h3 (by omega) ha hc⟩
  obtain ⟨n, hn⟩ := h5 100
  obtain ⟨m, answers, others, _, i1, i2, i3⟩ := C132_answered (reachable_start k) rfl rfl h1 h2 h3 h4 n
  have : ∀ l : List Request, Spec.requests (l.map .request) = l := by
    intro l; induction l with
    | nil => rfl
    | cons r l ih => simp [Spec.requests, ih]
  refine ⟨m, answers, others, ?_, by simpa using i2, i3⟩
  rw [hn] at i1
  simpa only [List.length_nil, List.drop_zero, List.nil_append, this] using i1

/-- Beside C132_starves: of three workers the first is for ever about to answer, while the second answers all others. -/
example (k : Kind) : ∃ s, Run k {} 3 s ∧ Scheduled k s ∧ (∀ j, ∃ m, (s m).io.accepted.length = j) ∧
    ∀ m, 3 ≤ m → (s m).workers[0]? = some (.answering (.workspaceReload (.str "a"))) := by
  obtain ⟨s, h1, _, h3, h4, h5⟩ := C132_starves (k := k) resting_start (r0 := .workspaceReload (.str "a")) (sampleTurns_carries 1)
    (by simp) sampleTurns_carries sampleTurns_stay 1
  refine ⟨s, h1, h3, ?_, fun m hm => (h5 m hm).1⟩
  intro j
  obtain ⟨m, sent, _, i2, ⟨xs, i3, i4, _⟩, _⟩ := h4 j
  refine ⟨m, ?_⟩
  have := i3.length_eq
  rw [i2, ← i4]
  simpa using this

end
end Bsp
