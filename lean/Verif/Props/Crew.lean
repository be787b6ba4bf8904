/-
C121: one thread receives, the threads it starts send.
-/
import Verif.Crew
import Verif.Props.Pool

namespace Bsp
open Conn Session Transport

section
variable [Ext]

/-! ### Specification -/

/-- `s` is made of the lists of `ls`, each of them in its order, mixed in any way. -/
inductive Spec.Merged {α : Type} : List (List α) → List α → Prop
  | nil {ls : List (List α)} : (∀ l ∈ ls, l = []) → Merged ls []
  | snoc {a b : List (List α)} {l s : List α} {x : α} : Merged (a ++ l :: b) s →
      Merged (a ++ (l ++ [x]) :: b) (s ++ [x])

/-- The answer to shutdown: the result is null. -/
def Spec.goodbye (id : RequestId) : Message := .response ⟨id, some Value.null, none⟩

/-- The ids of the responses among some messages. -/
def Spec.answered (ms : List Message) : List RequestId :=
  ms.filterMap fun | .response x => some x.id | _ => none

/-! ### Mixing -/

omit [Ext] in
theorem merged_more {α : Type} {ls : List (List α)} {s : List α} (h : Spec.Merged ls s) :
    Spec.Merged (ls ++ [[]]) s := by
  induction h with
  | nil h => exact .nil (by intro l hl; rcases List.mem_append.1 hl with h1 | h1; exact h l h1; simpa using h1)
  | @snoc a b l s x _ ih =>
    have : a ++ (l ++ [x]) :: b ++ [[]] = a ++ (l ++ [x]) :: (b ++ [[]]) := by simp
    rw [this]
    exact .snoc (by simpa using ih)

omit [Ext] in
theorem merged_perm {α : Type} {ls : List (List α)} {s : List α} (h : Spec.Merged ls s) : s.Perm ls.flatten := by
  induction h with
  | nil h => rw [List.flatten_eq_nil_iff.2 h]
  | @snoc a b l s x _ ih =>
    have e : (a ++ (l ++ [x]) :: b).flatten = a.flatten ++ l ++ [x] ++ b.flatten := by simp
    rw [e, List.append_assoc _ [x]]
    refine (ih.append_right [x]).trans ?_
    simp only [List.flatten_append, List.flatten_cons, List.append_assoc]
    refine List.Perm.append_left _ (List.Perm.append_left _ ?_)
    exact List.perm_append_comm

omit [Ext] in
theorem merged_sublist {α : Type} {ls : List (List α)} {s : List α} (h : Spec.Merged ls s) :
    ∀ l ∈ ls, l.Sublist s := by
  induction h with
  | nil h => intro l hl; rw [h l hl]; exact List.Sublist.refl _
  | @snoc a b l s x _ ih =>
    intro t ht
    rcases List.mem_append.1 ht with h1 | h1
    · exact (ih t (by simp [h1])).trans (List.sublist_append_left _ _)
    · rcases List.mem_cons.1 h1 with rfl | h1
      · exact List.Sublist.append (ih l (by simp)) (List.Sublist.refl _)
      · exact (ih t (by simp [h1])).trans (List.sublist_append_left _ _)

omit [Ext] in
theorem merged_tail {α : Type} {ls : List (List α)} {s : List α} (h : Spec.Merged ([] :: ls) s) : Spec.Merged ls s := by
  generalize h0 : [] :: ls = ls0 at h
  induction h generalizing ls with
  | nil h => subst h0; exact .nil fun l hl => h l (List.mem_cons_of_mem _ hl)
  | @snoc a b l s x _ ih =>
    cases a with
    | nil =>
      simp only [List.nil_append, List.cons.injEq] at h0
      simp at h0
    | cons y a =>
      simp only [List.cons_append, List.cons.injEq] at h0
      obtain ⟨rfl, rfl⟩ := h0
      exact .snoc (ih rfl)

variable [Dbg] [FloatText] {k : Kind} {work : Request → List Message → Prop}

/-! ### What holds at any time -/

/-- What the main thread has sent after a request to shut down. -/
def Replied (k : Kind) (io : Transport.State) (id : RequestId) (mine : List Message) : Prop :=
  mine = [Spec.goodbye id] ∨ mine = [] ∧ io.writer = writeError k

/-- Where the main thread is and what it has sent, given the messages it has received and the requests for which there
are threads. -/
inductive Stage (k : Kind) (as : List Pool.Act) (io : Transport.State) (reqs : List Request) (ds : List Message) :
    App → List Message → Prop
  | idle : Spec.NoShutdown ds → reqs = Spec.requests ds → Stage k as io reqs ds .idle []
  | closed : Spec.NoShutdown ds → reqs = Spec.requests ds → io.reader.ended = true → Over io →
      Stage k as io reqs ds (.ended (.ok ())) []
  | stopping {pre id} : ds = pre ++ [.request (.shutdown id)] → Spec.NoShutdown pre → reqs = Spec.requests pre →
      Stage k as io reqs ds (.stopping id) []
  | leaving {pre id mine} : ds = pre ++ [.request (.shutdown id)] → Spec.NoShutdown pre → reqs = Spec.requests pre →
      Replied k io id mine → Stage k as io reqs ds .leaving mine
  | ended {pre id mine m r} : ds = pre ++ [.request (.shutdown id), m] → Spec.NoShutdown pre →
      reqs = Spec.requests pre → Replied k io id mine →
      (m = .notification .exit ∧ r = .ok () ∨ m ≠ .notification .exit ∧ r ≠ .ok ()) → Stage k as io reqs ds (.ended r) mine
  | cut {pre id mine e} : ds = pre ++ [.request (.shutdown id)] → Spec.NoShutdown pre → reqs = Spec.requests pre →
      Replied k io id mine → (io.reader.ended = true ∧ Over io ∨ Pool.Act.timeout ∈ as) →
      Stage k as io reqs ds (.ended (.err e)) mine

omit [Dbg] in
theorem Stage.mono {as as' : List Pool.Act} {io io' : Transport.State} {reqs : List Request} {ds : List Message} {a : App}
    {mine : List Message} (h : Stage k as io reqs ds a mine)
    (h1 : io.reader.ended = true → io'.reader.ended = true) (h2 : Over io → Over io')
    (h3 : io.writer = writeError k → io'.writer = writeError k) (h4 : ∀ x ∈ as, x ∈ as') :
    Stage k as' io' reqs ds a mine := by
  have hr : ∀ {id mine}, Replied k io id mine → Replied k io' id mine := by
    rintro id mine (h | ⟨h, h'⟩)
    · exact .inl h
    · exact .inr ⟨h, h3 h'⟩
  cases h with
  | idle h5 h6 => exact .idle h5 h6
  | closed h5 h6 h7 h8 => exact .closed h5 h6 (h1 h7) (h2 h8)
  | stopping h5 h6 h7 => exact .stopping h5 h6 h7
  | leaving h5 h6 h7 h8 => exact .leaving h5 h6 h7 (hr h8)
  | ended h5 h6 h7 h8 h9 => exact .ended h5 h6 h7 (hr h8) h9
  | cut h5 h6 h7 h8 h9 => exact .cut h5 h6 h7 (hr h8) (h9.imp (fun ⟨x, y⟩ => ⟨h1 x, h2 y⟩) (h4 _))

/-- The invariant. -/
structure CrewInv (k : Kind) (work : Request → List Message → Prop) (io : Transport.State) (as : List Pool.Act)
    (p : Crew.State) (ds sent : List Message) : Prop where
  reach : Reachable k p.io
  rx : p.io.rxAlive = false → ∃ r, p.main = .ended r
  tx : p.io.txAlive = false → (∃ r, p.main = .ended r) ∧ ∀ j ∈ p.jobs, j.left = []
  delivered : p.io.delivered = io.delivered ++ ds
  accepted : p.io.accepted = io.accepted ++ sent
  merged : Spec.Merged (p.mine :: p.jobs.map (·.sent)) sent
  works : ∀ j ∈ p.jobs, work j.req (j.sent ++ (j.left ++ j.lost))
  lost : ∀ j ∈ p.jobs, j.lost ≠ [] → j.left = [] ∧ p.io.writer = writeError k
  stage : Stage k as p.io (p.jobs.map (·.req)) ds p.main p.mine

theorem crewInv {io : Transport.State} {p : Crew.State} {as : List Pool.Act} (hio : Reachable k io)
    (hx : io.rxAlive = true) (ht : io.txAlive = true) (h : Crew.Steps k work { io := io } as p) :
    ∃ ds sent, CrewInv k work io as p ds sent := by
  generalize h0 : ({ io := io } : Crew.State) = p0 at h
  induction h with
  | nil =>
    subst h0
    exact ⟨[], [], hio, by simp [hx], by simp [ht], by simp, by simp, .nil (by simp), by simp, by simp,
      .idle (by simp [Spec.NoShutdown]) rfl⟩
  | @snoc as q act r h1 h2 ih =>
    obtain ⟨ds, sent, I⟩ := ih
    cases h2 with
    | io h3 h4 =>
      obtain ⟨act', h5, _⟩ := pool_kind h4
      obtain ⟨e1, e2, e3, e4, e5, e6, _⟩ := io_same h3 h5
      exact ⟨ds, sent, reachable_step I.reach h3, fun h => I.rx (e3 ▸ h), fun h => I.tx (e4 ▸ h),
        e1.trans I.delivered, e2.trans I.accepted, I.merged, I.works, fun j hj hl => ⟨(I.lost j hj hl).1, e6 (I.lost j hj hl).2⟩,
        I.stage.mono e5 (over_io h3 h5) e6 (by simp_all)⟩
    | @recv q m io' h3 h4 h5 =>
      have hs := h4
      cases h4 with
      | deliver _ h6 h7 =>
      have hst := I.stage
      refine ⟨ds ++ [m], sent, reachable_step I.reach hs, ?_, ?_, by simp [I.delivered], I.accepted, I.merged, I.works, I.lost, ?_⟩
      · intro h; simp only at h; rw [h7] at h; cases h
      · intro h; obtain ⟨⟨r, h8⟩, _⟩ := I.tx h; rw [h8] at h3; cases h3
      · generalize q.main = x at *
        generalize q.mine = mine at *
        cases hst with
        | idle h8 h9 =>
          match m with
          | .request (.shutdown id) => exact .stopping rfl h8 h9
          | .notification n =>
            refine .idle ?_ (by rw [reqs_append]; simpa [Spec.requests] using h9)
            intro id h
            rcases List.mem_append.1 h with h | h
            · exact h8 id h
            · simp at h
          | .response n =>
            refine .idle ?_ (by rw [reqs_append]; simpa [Spec.requests] using h9)
            intro id h
            rcases List.mem_append.1 h with h | h
            · exact h8 id h
            · simp at h
          | .request req =>
            cases req with
            | shutdown id => exact .stopping rfl h8 h9
            | _ => exact absurd rfl (h5 _)
        | @leaving pre id mine h8 h9 h10 h11 =>
          by_cases hm : m = .notification .exit
          · subst hm
            exact .ended (id := id) (by rw [h8]; simp) h9 h10 h11 (.inl ⟨rfl, rfl⟩)
          · have : ∃ e, Crew.onRecv .leaving (some m) = .ended (.err e) := by
              match m, hm with
              | .request _, _ => exact ⟨_, rfl⟩
              | .response _, _ => exact ⟨_, rfl⟩
              | .notification n, hm => cases n <;> first | exact absurd rfl hm | exact ⟨_, rfl⟩
            obtain ⟨e, he⟩ := this
            rw [he]
            exact .ended (id := id) (m := m) (by rw [h8]; simp) h9 h10 h11 (.inr ⟨hm, by simp⟩)
        | _ => cases h3
    | @hire q m io' r ms h3 h4 h5 h6 =>
      have hs := h4
      cases h4 with
      | deliver _ h7 h8 =>
      have hst := I.stage
      refine ⟨ds ++ [m], sent, reachable_step I.reach hs, ?_, ?_, by simp [I.delivered], I.accepted, ?_, ?_, ?_, ?_⟩
      · intro h; simp only at h; rw [h8] at h; cases h
      · intro h; obtain ⟨⟨r, h9⟩, _⟩ := I.tx h; rw [h9] at h3; cases h3
      · have := merged_more I.merged
        simpa using this
      · intro j hj
        rcases List.mem_append.1 hj with hj | hj
        · exact I.works j hj
        · rw [List.mem_singleton.1 hj]; simpa using h6
      · intro j hj
        rcases List.mem_append.1 hj with hj | hj
        · exact I.lost j hj
        · rw [List.mem_singleton.1 hj]; simp
      · simp only [List.map_append, List.map_cons, List.map_nil]
        generalize q.main = x at *
        generalize q.mine = mine at *
        cases hst with
        | idle h9 h10 =>
          have : m = .request r ∧ ∀ id, r ≠ .shutdown id := by
            match m with
            | .request req => cases req <;> cases h5 <;> exact ⟨rfl, by simp⟩
            | .notification n => cases h5
            | .response n => cases h5
          obtain ⟨rfl, h11⟩ := this
          refine .idle ?_ (by rw [reqs_append, h10]; rfl)
          intro id h
          rcases List.mem_append.1 h with h | h
          · exact h9 id h
          · simp only [List.mem_singleton, Message.request.injEq] at h
            exact h11 id h.symm
        | leaving =>
          exfalso
          match m with
          | .request _ => cases h5
          | .response _ => cases h5
          | .notification n => cases n <;> cases h5
        | _ => cases h3
    | @closed q h3 h4 =>
      have hst := I.stage
      have halive : q.io.rxAlive = true := by
        cases h5 : q.io.rxAlive with
        | true => rfl
        | false => obtain ⟨r, h6⟩ := I.rx h5; rw [h6] at h3; cases h3
      have hover := over_closed I.reach h4 halive
      refine ⟨ds, sent, I.reach, ?_, ?_, I.delivered, I.accepted, I.merged, I.works, I.lost, ?_⟩
      · intro h; rw [halive] at h; cases h
      · intro h; obtain ⟨⟨r, h9⟩, _⟩ := I.tx h; rw [h9] at h3; cases h3
      · generalize q.main = x at *
        generalize q.mine = mine at *
        cases hst with
        | idle h8 h9 => exact .closed h8 h9 h4 hover
        | leaving h8 h9 h10 h11 => exact .cut h8 h9 h10 h11 (.inl ⟨h4, hover⟩)
        | _ => cases h3
    | @reply q m io' h3 h4 =>
      have hs := h4
      cases h4 with
      | accept _ h5 h6 =>
      have hst := I.stage
      refine ⟨ds, sent ++ [m], reachable_step I.reach hs, ?_, ?_, I.delivered, by simp [I.accepted], ?_, I.works, ?_, ?_⟩
      · intro h; obtain ⟨r, h9⟩ := I.rx h; rw [h9] at h3; cases h3
      · intro h; simp only at h; rw [h6] at h; cases h
      · exact .snoc (a := []) I.merged
      · intro j hj hl
        have := (I.lost j hj hl).2
        rw [h5] at this; cases k <;> cases this
      · generalize q.main = x at *
        generalize q.mine = mine at *
        cases hst with
        | stopping h7 h8 h9 => cases h3; exact .leaving h7 h8 h9 (.inl rfl)
        | _ => cases h3
    | @noReply q m h3 h4 =>
      have hst := I.stage
      have halive : q.io.txAlive = true := by
        cases h5 : q.io.txAlive with
        | true => rfl
        | false => obtain ⟨⟨r, h6⟩, _⟩ := I.tx h5; rw [h6] at h3; cases h3
      refine ⟨ds, sent, I.reach, ?_, ?_, I.delivered, I.accepted, I.merged, I.works, I.lost, ?_⟩
      · intro h; obtain ⟨r, h9⟩ := I.rx h; rw [h9] at h3; cases h3
      · intro h; rw [halive] at h; cases h
      · have hwe := C54_alive I.reach halive h4
        generalize q.main = x at *
        generalize q.mine = mine at *
        cases hst with
        | stopping h7 h8 h9 => exact .leaving h7 h8 h9 (.inr ⟨rfl, hwe⟩)
        | _ => cases h3
    | @send io1 io' main mine a b r s m l z h4 =>
      have hs := h4
      cases h4 with
      | accept _ h5 h6 =>
      have hnw : io1.writer ≠ writeError k := by rw [h5]; cases k <;> simp [writeError]
      have hacc := I.accepted
      simp only at hacc
      refine ⟨ds, sent ++ [m], reachable_step I.reach hs, I.rx, ?_, I.delivered, by simp [hacc], ?_, ?_, ?_, ?_⟩
      · intro h; simp only at h; rw [h6] at h; cases h
      · have := I.merged
        simp only [List.map_append, List.map_cons] at this ⊢
        exact Spec.Merged.snoc (a := mine :: a.map (fun j => j.sent)) (by simpa using this)
      · intro j hj
        rcases mem_mid (x := ⟨r, s, m :: l, z⟩) hj with rfl | hj
        · simpa using I.works ⟨r, s, m :: l, z⟩ (by simp)
        · exact I.works j hj
      · intro j hj hl
        exfalso
        rcases mem_mid (x := ⟨r, s, m :: l, z⟩) hj with rfl | hj
        · exact hnw (I.lost ⟨r, s, m :: l, z⟩ (by simp) hl).2
        · exact hnw (I.lost j hj hl).2
      · have := I.stage
        simp only [List.map_append, List.map_cons] at this ⊢
        exact this.mono id (fun h => over_same h rfl rfl rfl) (fun h => absurd h hnw) (by simp_all)
    | @unsent io1 main mine a b r s m l z h4 =>
      have hz : z = [] := by
        cases z with
        | nil => rfl
        | cons y z => have := (I.lost ⟨r, s, m :: l, y :: z⟩ (by simp) (by simp)).1; cases this
      subst hz
      have halive : io1.txAlive = true := by
        cases h5 : io1.txAlive with
        | true => rfl
        | false => have := (I.tx h5).2 ⟨r, s, m :: l, []⟩ (by simp); cases this
      have hwe := C54_alive I.reach halive h4
      refine ⟨ds, sent, I.reach, I.rx, ?_, I.delivered, I.accepted, ?_, ?_, ?_, ?_⟩
      · intro h; simp only at h; rw [halive] at h; cases h
      · have := I.merged
        simp only [List.map_append, List.map_cons] at this ⊢
        exact this
      · intro j hj
        rcases mem_mid (x := ⟨r, s, m :: l, []⟩) hj with rfl | hj
        · simpa using I.works ⟨r, s, m :: l, []⟩ (by simp)
        · exact I.works j hj
      · intro j hj hl
        rcases mem_mid (x := ⟨r, s, m :: l, []⟩) hj with rfl | hj
        · exact ⟨rfl, hwe⟩
        · exact I.lost j hj hl
      · have := I.stage
        simp only [List.map_append, List.map_cons] at this ⊢
        exact this.mono id id id (by simp_all)
    | @timeout q h3 =>
      have hst := I.stage
      refine ⟨ds, sent, I.reach, fun _ => ⟨_, rfl⟩, fun h => ⟨⟨_, rfl⟩, (I.tx h).2⟩, I.delivered, I.accepted, I.merged,
        I.works, I.lost, ?_⟩
      rw [h3] at hst
      generalize q.mine = mine at *
      cases hst with
      | leaving h8 h9 h10 h11 => exact .cut h8 h9 h10 h11 (.inr (by simp))
    | @dropRx q h3 h4 =>
      exact ⟨ds, sent, reachable_step I.reach (.dropRx _), fun _ => h3, I.tx, I.delivered, I.accepted, I.merged,
        I.works, I.lost, I.stage.mono id (fun h => over_same h rfl rfl rfl) id (by simp_all)⟩
    | @dropTx q h3 h4 h5 =>
      exact ⟨ds, sent, reachable_step I.reach (.dropTx _), I.rx, fun _ => ⟨h3, h4⟩, I.delivered, I.accepted, I.merged,
        I.works, I.lost, I.stage.mono id (fun h => over_same h rfl rfl rfl) id (by simp_all)⟩

theorem crew_no_fail {p q : Crew.State} {as : List Pool.Act} (h : Crew.Steps k work p as q)
    (hw : Pool.Act.writeFails ∉ as) (hp : p.io.writer ≠ writeError k) : q.io.writer ≠ writeError k := by
  induction h with
  | nil => exact hp
  | snoc h1 h2 ih =>
    simp only [List.mem_append, List.mem_singleton, not_or] at hw
    have hq := ih hw.1
    cases h2 with
    | io h3 h4 =>
      obtain ⟨act', h5, h6⟩ := pool_kind h4
      exact fun h => hq ((io_same h3 h5).2.2.2.2.2.2 (h6 (fun e => hw.2 e.symm)) h)
    | recv _ hs => cases hs with | deliver _ _ => exact hq
    | hire _ hs => cases hs with | deliver _ _ => exact hq
    | reply _ hs => cases hs with | accept _ _ _ => intro h; cases k <;> cases h
    | send hs => cases hs with | accept _ _ _ => intro h; cases k <;> cases h
    | _ => exact hq

omit [Dbg] in
theorem stage_split {as : List Pool.Act} {io : Transport.State} {reqs : List Request} {ds : List Message} {a : App}
    {mine : List Message} (h : Stage k as io reqs ds a mine) :
    ∃ pre post, ds = pre ++ post ∧ Spec.NoShutdown pre ∧ reqs = Spec.requests pre ∧
      (post = [] ∧ mine = [] ∨ ∃ id tail, post = .request (.shutdown id) :: tail ∧ tail.length ≤ 1 ∧
        (mine = [] ∨ mine = [Spec.goodbye id])) := by
  have hr : ∀ {id mine}, Replied k io id mine → mine = [] ∨ mine = [Spec.goodbye id] := by
    rintro id mine (h | ⟨h, _⟩)
    · exact .inr h
    · exact .inl h
  cases h with
  | idle h5 h6 => exact ⟨ds, [], by simp, h5, h6, .inl ⟨rfl, rfl⟩⟩
  | closed h5 h6 h7 h8 => exact ⟨ds, [], by simp, h5, h6, .inl ⟨rfl, rfl⟩⟩
  | stopping h5 h6 h7 => exact ⟨_, _, h5, h6, h7, .inr ⟨_, [], rfl, by simp, .inl rfl⟩⟩
  | leaving h5 h6 h7 h8 => exact ⟨_, _, h5, h6, h7, .inr ⟨_, [], rfl, by simp, hr h8⟩⟩
  | ended h5 h6 h7 h8 h9 => exact ⟨_, _, h5, h6, h7, .inr ⟨_, [_], rfl, by simp, hr h8⟩⟩
  | cut h5 h6 h7 h8 h9 => exact ⟨_, _, h5, h6, h7, .inr ⟨_, [], rfl, by simp, hr h8⟩⟩

/-- C121: whatever the order in which the threads take their steps, and even if writes fail: there is one thread for each
request received before a request to shut down; each thread has sent a beginning of what it has to send, in its order;
what has been sent on the connection is that, mixed in some way, with at most one more message, the answer to shutdown;
after a request to shut down at most one message is received. -/
theorem C121_sent {io : Transport.State} {p : Crew.State} {as : List Pool.Act} (hio : Reachable k io)
    (hx : io.rxAlive = true) (ht : io.txAlive = true) (h : Crew.Steps k work { io := io } as p) :
    ∃ (pre post sent mine : List Message) (l : List (Request × List Message × List Message)),
      p.io.delivered = io.delivered ++ (pre ++ post) ∧ p.io.accepted = io.accepted ++ sent ∧
      Spec.NoShutdown pre ∧ l.map (·.1) = Spec.requests pre ∧ (∀ x ∈ l, work x.1 (x.2.1 ++ x.2.2)) ∧
      Spec.Merged (mine :: l.map (·.2.1)) sent ∧
      (post = [] ∧ mine = [] ∨ ∃ id tail, post = .request (.shutdown id) :: tail ∧ tail.length ≤ 1 ∧
        (mine = [] ∨ mine = [Spec.goodbye id])) := by
  obtain ⟨ds, sent, I⟩ := crewInv hio hx ht h
  obtain ⟨pre, post, h1, h2, h3, h4⟩ := stage_split I.stage
  refine ⟨pre, post, sent, p.mine, p.jobs.map fun j => (j.req, j.sent, j.left ++ j.lost), h1 ▸ I.delivered, I.accepted, h2,
    ?_, ?_, ?_, h4⟩
  · rw [← h3, List.map_map]; rfl
  · intro x hx
    obtain ⟨j, hj, rfl⟩ := List.mem_map.1 hx
    exact I.works j hj
  · have := I.merged
    rw [List.map_map]
    exact this

/-- C121: the main thread ends well only if it has received shutdown and then exit, or if the input is over and no
request to shut down has been received. -/
theorem C121_ok {io : Transport.State} {p : Crew.State} {as : List Pool.Act} (hio : Reachable k io)
    (hx : io.rxAlive = true) (ht : io.txAlive = true) (h : Crew.Steps k work { io := io } as p)
    (hm : p.main = .ended (.ok ())) :
    ∃ ds, p.io.delivered = io.delivered ++ ds ∧
      ((∃ pre id, ds = pre ++ [.request (.shutdown id), .notification .exit] ∧ Spec.NoShutdown pre) ∨
       (Spec.NoShutdown ds ∧
          (Message.notification .exit ∈ p.io.delivered ∨ ∃ stop, Spec.Input p.io p.io.delivered stop))) := by
  obtain ⟨ds, sent, I⟩ := crewInv hio hx ht h
  refine ⟨ds, I.delivered, ?_⟩
  have hst := I.stage
  rw [hm] at hst
  generalize p.mine = mine at *
  cases hst with
  | closed h1 _ _ h2 => exact .inr ⟨h1, h2⟩
  | ended h1 h2 _ _ h3 =>
    rcases h3 with ⟨rfl, _⟩ | ⟨_, h3⟩
    · exact .inl ⟨_, _, h1, h2⟩
    · exact absurd rfl h3

/-! ### At rest -/

theorem crew_rest {io : Transport.State} {p : Crew.State} {as : List Pool.Act} {ds sent : List Message}
    (hi : CrewInv k work io as p ds sent) (hwk : ∀ r, ∃ ms, work r ms) (hw : p.io.writer ≠ writeError k)
    (hq : Crew.Quiet k work p) :
    toSend p.main = none ∧ (∀ j ∈ p.jobs, j.left = []) ∧ p.io.out = p.io.accepted.flatMap Frame.write ∧
    (p.main.receives = true → p.io.reader = .reading ∧ p.io.inEnd = none ∧
      ∀ bs ms rest, p.io.arrived = bs ++ rest → Spec.Carries bs ms → ms <+: p.io.delivered) ∧
    ((∃ r, p.main = .ended r) → p.io.writer = .done) := by
  have hr := hi.reach
  have hwi := writeInv hr
  have no : ∀ {a q}, Crew.Step k work p a q → a ≠ .peer → a ≠ .timeout → False := by
    intro a q h1 h2 h3
    rcases hq _ _ h1 with h | h
    · exact h2 h
    · exact h3 h
  have no_thread : ∀ {a s'}, Transport.Step k p.io a s' → Pool.kindOf a = some .thread → False :=
    fun h1 h2 => no (.io h1 h2) (by simp) (by simp)
  have hidle : p.io.writer = .idle ∨ p.io.writer = .done := by
    cases hwr : p.io.writer with
    | idle => exact .inl rfl
    | done => exact .inr rfl
    | writing rest =>
      cases rest with
      | nil => exact (no_thread (.written _ hwr) rfl).elim
      | cons y rest => exact (no_thread (.write _ [y] rest hwr (by simp)) rfl).elim
    | failed => simp only [WriteInv, hwr] at hwi; rw [hwr, hwi.1] at hw; exact absurd rfl hw
    | panicked => simp only [WriteInv, hwr] at hwi; rw [hwr, hwi.1] at hw; exact absurd rfl hw
  have hsendable : p.io.txAlive = true → ∀ m, ∃ io', Transport.Step k p.io (.accept m) io' := by
    intro h1 m
    rcases hidle with h | h
    · exact ⟨_, .accept _ m h h1⟩
    · rw [(C54_drained hr h).1] at h1; cases h1
  have hmain : toSend p.main = none := by
    cases hs : toSend p.main with
    | none => rfl
    | some m =>
      have ha : p.io.txAlive = true := by
        cases h1 : p.io.txAlive with
        | true => rfl
        | false => obtain ⟨⟨r, h⟩, _⟩ := hi.tx h1; rw [h] at hs; cases hs
      obtain ⟨io', h1⟩ := hsendable ha m
      exact (no (.reply hs h1) (by simp) (by simp)).elim
  have hjobs : ∀ j ∈ p.jobs, j.left = [] := by
    intro j hj
    obtain ⟨r, s, left, z⟩ := j
    cases left with
    | nil => rfl
    | cons m l =>
      have ha : p.io.txAlive = true := by
        cases h1 : p.io.txAlive with
        | true => rfl
        | false => cases (hi.tx h1).2 _ hj
      obtain ⟨io', h1⟩ := hsendable ha m
      obtain ⟨a, b, hab⟩ := List.append_of_mem hj
      have hp : p = ⟨p.io, p.main, p.mine, a ++ ⟨r, s, m :: l, z⟩ :: b⟩ := by rw [← hab]
      rw [hp] at no
      exact (no (.send h1) (by simp) (by simp)).elim
  refine ⟨hmain, hjobs, ?_, ?_, ?_⟩
  · rcases hidle with h | h
    · simp only [WriteInv, h] at hwi; exact hwi
    · exact (C54_drained hr h).2
  · intro hrec
    have hrx : p.io.rxAlive = true := by
      cases h1 : p.io.rxAlive with
      | true => rfl
      | false => obtain ⟨r, h⟩ := hi.rx h1; rw [h] at hrec; cases hrec
    have hread : p.io.reader = .reading := by
      have closed : p.io.reader.ended = true → False := fun h1 => no (.closed hrec h1) (by simp) (by simp)
      cases hrd : p.io.reader with
      | reading => rfl
      | sending m =>
        exfalso
        by_cases h1 : ∃ r, Crew.onRecv p.main (some m) = .answering r
        · obtain ⟨r, h1⟩ := h1
          obtain ⟨ms, h2⟩ := hwk r
          exact no (.hire hrec (.deliver _ m hrd hrx) h1 h2) (by simp) (by simp)
        · exact no (.recv hrec (.deliver _ m hrd hrx) (fun r h => h1 ⟨r, h⟩)) (by simp) (by simp)
      | _ => exact (closed (by rw [hrd]; rfl)).elim
    have hno : ¬ ∃ s', Transport.Step k p.io .read s' := fun ⟨s', h1⟩ => no_thread h1 rfl
    have hie : p.io.inEnd = none := by
      cases he : p.io.inEnd with
      | none => rfl
      | some b =>
        exact absurd ⟨_, .read _ (Frame.readMsg (⟨p.io.unread, b⟩ : Frame.Flat)) hread (by simp [Settled, he])⟩ hno
    refine ⟨hread, hie, ?_⟩
    intro bs ms rest hb hc
    obtain ⟨⟨used, ps, hu, hp, hc'⟩, _, _⟩ := (readInv hr).1
    simp only [Spec.Pending, hread] at hp
    subst hp
    rw [List.append_nil] at hc'
    have e1 := readAll_carries hc rest false
    rw [← hb, hu, readAll_carries hc', nothing_whole hread hno] at e1
    simp only [List.append_nil, Prod.mk.injEq] at e1
    rw [e1.1]
    exact List.prefix_append _ _
  · intro hend
    have htx : p.io.txAlive = false := by
      cases h1 : p.io.txAlive with
      | false => rfl
      | true => exact (no (.dropTx hend hjobs h1) (by simp) (by simp)).elim
    rcases hidle with h1 | h1
    · exact (no_thread (.close _ h1 htx) rfl).elim
    · exact h1

omit [Dbg] in
/-- At rest, and if no write has failed, every thread has sent all it has to send. -/
theorem crew_done {io : Transport.State} {p : Crew.State} {as : List Pool.Act} {ds sent : List Message}
    (hi : CrewInv k work io as p ds sent) (hw : p.io.writer ≠ writeError k) (hl : ∀ j ∈ p.jobs, j.left = []) :
    ∃ l : List (Request × List Message), l.map (·.1) = p.jobs.map (·.req) ∧ (∀ x ∈ l, work x.1 x.2) ∧
      Spec.Merged (p.mine :: l.map (·.2)) sent := by
  refine ⟨p.jobs.map fun j => (j.req, j.sent), by rw [List.map_map]; rfl, ?_, ?_⟩
  · intro x hx
    obtain ⟨j, hj, rfl⟩ := List.mem_map.1 hx
    have := hi.works j hj
    have hz : j.lost = [] := by
      cases h : j.lost with
      | nil => rfl
      | cons y z => exact absurd (hi.lost j hj (by simp [h])).2 hw
    simpa [hl j hj, hz] using this
  · have := hi.merged
    rw [List.map_map]
    exact this

omit [Dbg] in
theorem stage_open {as : List Pool.Act} {io : Transport.State} {reqs : List Request} {ds : List Message} {a : App}
    {mine : List Message} (h : Stage k as io reqs ds a mine) (hs : Spec.NoShutdown ds) :
    reqs = Spec.requests ds ∧ mine = [] ∧
      (a = .idle ∨ a = .ended (.ok ()) ∧ io.reader.ended = true ∧ Over io) := by
  have no : ∀ {pre id tail}, ds = pre ++ .request (.shutdown id) :: tail → False :=
    fun h => hs _ (by rw [h]; exact List.mem_append_right _ (List.mem_cons_self ..))
  cases h with
  | idle _ h => exact ⟨h, rfl, .inl rfl⟩
  | closed _ h h' h'' => exact ⟨h, rfl, .inr ⟨rfl, h', h''⟩⟩
  | stopping h => exact (no h).elim
  | leaving h => exact (no h).elim
  | ended h => exact (no h).elim
  | cut h => exact (no h).elim

/-- The main thread has received shutdown and exit. -/
theorem stage_last {as : List Pool.Act} {io : Transport.State} {reqs : List Request} {ds pre : List Message} {a : App}
    {mine : List Message} {sid : RequestId} (h : Stage k as io reqs ds a mine)
    (hd : ds = pre ++ [.request (.shutdown sid), .notification .exit])
    (hw : io.writer ≠ writeError k) (ht : toSend a = none) (hr : a.receives ≠ true) :
    reqs = Spec.requests pre ∧ mine = [Spec.goodbye sid] ∧ a = .ended (.ok ()) := by
  have hin : Message.request (.shutdown sid) ∈ ds := by rw [hd]; simp
  have hno : ∀ {a : List Message} {id : RequestId}, ds = a ++ [.request (.shutdown id)] → False := by
    intro a id h
    rw [hd] at h
    have := congrArg List.getLast? h
    simp at this
  cases h with
  | idle h => exact absurd rfl hr
  | closed h => exact absurd hin (h sid)
  | stopping h => cases ht
  | leaving h => exact absurd rfl hr
  | @ended pre' id mine m r h1 h2 h3 h4 h5 =>
    rw [hd] at h1
    obtain ⟨h6, h7⟩ := List.append_inj' h1 rfl
    simp only [List.cons.injEq, Message.request.injEq, Request.shutdown.injEq, and_true] at h7
    obtain ⟨rfl, rfl⟩ := h7
    subst h6
    refine ⟨h3, ?_, ?_⟩
    · rcases h4 with h4 | ⟨_, h4⟩
      · exact h4
      · exact absurd h4 hw
    · rcases h5 with ⟨_, h5⟩ | ⟨h5, _⟩
      · rw [h5]
      · exact absurd rfl h5
  | cut h => exact (hno h).elim

/-- C121: when nothing is left to be done, no write has failed and no request to shut down has been received: for each
request received, and in the order in which the requests came, there has been one thread, and it has sent all it had to
send, which has been written.  The main thread waits for input and has received all messages the input carries, or the
input is over, the main thread has ended well and `join` returns. -/
theorem C121_rest {io : Transport.State} {p : Crew.State} {as : List Pool.Act} (hio : Reachable k io)
    (hx : io.rxAlive = true) (ht : io.txAlive = true) (hw : io.writer ≠ writeError k) (hwk : ∀ r, ∃ ms, work r ms)
    (h : Crew.Steps k work { io := io } as p) (ha : Pool.Act.writeFails ∉ as) (hq : Crew.Quiet k work p)
    (hs : Spec.NoShutdown (p.io.delivered.drop io.delivered.length)) :
    ∃ (ds sent : List Message) (l : List (Request × List Message)), p.io.delivered = io.delivered ++ ds ∧
      p.io.accepted = io.accepted ++ sent ∧ l.map (·.1) = Spec.requests ds ∧ (∀ x ∈ l, work x.1 x.2) ∧
      Spec.Merged (l.map (·.2)) sent ∧ p.io.out = p.io.accepted.flatMap Frame.write ∧
      ((p.main = .idle ∧ p.io.inEnd = none ∧
          ∀ bs ms rest, p.io.arrived = bs ++ rest → Spec.Carries bs ms → ms <+: p.io.delivered) ∨
       (p.main = .ended (.ok ()) ∧ join k p.io ≠ .waiting ∧
          (Message.notification .exit ∈ p.io.delivered ∨ ∃ stop, Spec.Input p.io p.io.delivered stop))) := by
  obtain ⟨ds, sent, I⟩ := crewInv hio hx ht h
  have hne := crew_no_fail h ha hw
  obtain ⟨_, h2, h3, h4, h5⟩ := crew_rest I hwk hne hq
  obtain ⟨l, h6, h7, h8⟩ := crew_done I hne h2
  rw [I.delivered, List.drop_left' rfl] at hs
  obtain ⟨h9, h10, h11⟩ := stage_open I.stage hs
  rw [h10] at h8
  refine ⟨ds, sent, l, I.delivered, I.accepted, h6.trans h9, h7, merged_tail h8, h3, ?_⟩
  rcases h11 with h11 | ⟨h11, h12, h13⟩
  · obtain ⟨_, h12, h13⟩ := h4 (by rw [h11]; rfl)
    exact .inl ⟨h11, h12, h13⟩
  · refine .inr ⟨h11, ?_, h13⟩
    unfold join
    rw [h5 ⟨_, h11⟩]
    cases hrd : p.io.reader with
    | reading => rw [hrd] at h12; cases h12
    | sending m => rw [hrd] at h12; cases h12
    | done => simp
    | failed => simp
    | panicked => simp [Writer.ended]

/-- C121: the client sends some messages, then shutdown, then exit.  When nothing is left to be done, no write has failed
and exit was not late, all of them have been received; each request has had its thread, which has sent all it had to
send, be it before or after the answer to shutdown or even after exit; all of that and the answer to shutdown has been
written; the main thread and `join` have ended well. -/
theorem C121_shutdown {io : Transport.State} {p : Crew.State} {as : List Pool.Act} (hio : Reachable k io)
    (hx : io.rxAlive = true) (ht : io.txAlive = true) (hw : io.writer ≠ writeError k) (hwk : ∀ r, ∃ ms, work r ms)
    (he : Message.notification .exit ∉ io.delivered)
    (h : Crew.Steps k work { io := io } as p) (ha : Pool.Act.writeFails ∉ as) (hl : Pool.Act.timeout ∉ as)
    (hq : Crew.Quiet k work p) {bs rest : Bytes} {pre : List Message} {sid : RequestId} (hb : p.io.arrived = bs ++ rest)
    (hc : Spec.Carries bs (io.delivered ++ pre ++ [.request (.shutdown sid), .notification .exit]))
    (hs : Spec.NoShutdown pre) (hxp : Message.notification .exit ∉ pre) :
    ∃ (sent : List Message) (l : List (Request × List Message)),
      p.io.delivered = io.delivered ++ pre ++ [.request (.shutdown sid), .notification .exit] ∧
      p.io.accepted = io.accepted ++ sent ∧ l.map (·.1) = Spec.requests pre ∧ (∀ x ∈ l, work x.1 x.2) ∧
      Spec.Merged ([Spec.goodbye sid] :: l.map (·.2)) sent ∧ p.io.out = p.io.accepted.flatMap Frame.write ∧
      p.main = .ended (.ok ()) ∧ join k p.io = .ok := by
  obtain ⟨ds, sent, I⟩ := crewInv hio hx ht h
  have hne := crew_no_fail h ha hw
  obtain ⟨h1, h2, h3, h4, h5⟩ := crew_rest I hwk hne hq
  obtain ⟨l, h6, h7, h8⟩ := crew_done I hne h2
  have hr := I.reach
  have e : pre ++ [.request (.shutdown sid), .notification .exit] =
    (pre ++ [.request (.shutdown sid)]) ++ [.notification .exit] := by simp
  have hxs : Message.notification .exit ∉ pre ++ [.request (.shutdown sid)] := by simp [hxp]
  -- what has been received is a beginning of what the client has sent
  have hpre : ds <+: pre ++ [.request (.shutdown sid), .notification .exit] := by
    have h1 := C51_prefix hr [] false
    rw [List.append_nil, hb, readAll_carries hc, I.delivered, List.append_assoc, List.append_assoc,
      List.prefix_append_right_inj] at h1
    rcases List.prefix_or_prefix_of_prefix h1 ⟨_, List.append_assoc ..⟩ with h9 | h9
    · exact h9
    · have hd : Message.notification .exit ∈ ds := h9.subset (by simp)
      obtain ⟨_, ⟨ms, h10, h11⟩, _⟩ := C52_exit hr (by rw [I.delivered]; exact List.mem_append_right _ hd)
      rw [I.delivered] at h10
      rcases List.eq_nil_or_concat ds with h12 | ⟨ds', z, h12⟩
      · rw [h12] at hd; cases hd
      · rw [List.concat_eq_append] at h12
        rw [h12, ← List.append_assoc] at h10
        obtain ⟨h13, h14⟩ := List.append_inj' h10 rfl
        rw [h12, List.prefix_concat_iff] at h9
        rcases h9 with h9 | h9
        · rw [h12, h9]; exact List.prefix_rfl
        · exact absurd (h13 ▸ List.mem_append_right _ (h9.subset (by simp))) h11
  -- all of it is received
  have hall : Message.notification .exit ∈ p.io.delivered → ds = pre ++ [.request (.shutdown sid), .notification .exit] := by
    intro hd
    rw [I.delivered] at hd
    have hd := (List.mem_append.1 hd).resolve_left he
    have h9 := hpre
    rw [e, List.prefix_concat_iff] at h9
    rcases h9 with h9 | h9
    · rw [h9, e]
    · exact absurd (h9.subset hd) hxs
  have hover : Over p.io → Message.notification .exit ∈ p.io.delivered := by
    rintro (h9 | ⟨stop, h9⟩)
    · exact h9
    · have key : ∀ c, Frame.readAll (⟨p.io.arrived, c⟩ : Frame.Flat) = (p.io.delivered, stop) →
          Message.notification .exit ∈ p.io.delivered := by
        intro c h4
        rw [hb, readAll_carries hc] at h4
        have := congrArg (·.1) h4
        simp only at this
        rw [← this]
        simp
      unfold Spec.Input at h9
      split at h9
      · exact key _ h9
      · exact key false (by simpa using h9 [] false)
  have hrecv : p.main.receives = true → Message.notification .exit ∈ p.io.delivered :=
    fun h9 => ((h4 h9).2.2 bs _ rest hb hc).subset (by simp)
  have hlast : ∀ {a : List Message} {id : RequestId} {m : Message}, ds = a ++ [.request (.shutdown id), m] →
      ds = pre ++ [.request (.shutdown sid), .notification .exit] := by
    intro a id m h9
    obtain ⟨t, h10⟩ := hpre
    rw [h9, List.append_assoc, List.cons_append] at h10
    rcases List.append_eq_append_iff.1 h10 with ⟨c, h11, h12⟩ | ⟨c, h11, h12⟩
    · cases c with
      | nil =>
        simp only [List.cons_append, List.nil_append, List.cons.injEq, Message.request.injEq, Request.shutdown.injEq] at h12
        rw [h9, h11, List.append_nil, h12.1, h12.2.1]
      | cons y c =>
        simp only [List.cons_append, List.cons.injEq] at h12
        exact absurd (by rw [h11, ← h12.1]; simp) (hs id)
    · cases c with
      | nil =>
        simp only [List.cons_append, List.nil_append, List.cons.injEq, Message.request.injEq, Request.shutdown.injEq] at h12
        rw [h9, h11, List.append_nil, h12.1, h12.2.1]
      | cons y c =>
        exfalso
        have := congrArg List.length h12
        simp at this
        omega
  have hst := I.stage
  have hdone : ds = pre ++ [.request (.shutdown sid), .notification .exit] := by
    generalize p.main = x at *
    generalize p.mine = mine at *
    cases hst with
    | idle _ _ => exact hall (hrecv rfl)
    | closed _ _ _ h => exact hall (hover h)
    | stopping h => cases h1
    | leaving h => exact hall (hrecv rfl)
    | ended h => exact hlast h
    | cut h _ _ _ h' => exact hall (hover (h'.resolve_right hl).2)
  obtain ⟨h9, h10, h11⟩ := stage_last I.stage hdone hne h1
    (fun h => by have := (h4 h).1; rw [(C52_exit hr (hrecv h)).1] at this; cases this)
  refine ⟨sent, l, ?_, I.accepted, h6.trans h9, h7, h10 ▸ h8, h3, h11, ?_⟩
  · rw [I.delivered, hdone, List.append_assoc]
  · refine C58_ok_iff.2 ⟨(C52_exit hr ?_).1, h5 ⟨_, h11⟩⟩
    rw [I.delivered, hdone]; simp

/-- C121: if the threads answer, each its request and once, then every request has been answered once. -/
theorem C121_once {io : Transport.State} {p : Crew.State} {as : List Pool.Act} (hio : Reachable k io)
    (hx : io.rxAlive = true) (ht : io.txAlive = true) (hw : io.writer ≠ writeError k) (hwk : ∀ r, ∃ ms, work r ms)
    (hwo : ∀ r ms, work r ms → Spec.answered ms = [r.id])
    (he : Message.notification .exit ∉ io.delivered)
    (h : Crew.Steps k work { io := io } as p) (ha : Pool.Act.writeFails ∉ as) (hl : Pool.Act.timeout ∉ as)
    (hq : Crew.Quiet k work p) {bs rest : Bytes} {pre : List Message} {sid : RequestId} (hb : p.io.arrived = bs ++ rest)
    (hc : Spec.Carries bs (io.delivered ++ pre ++ [.request (.shutdown sid), .notification .exit]))
    (hs : Spec.NoShutdown pre) (hxp : Message.notification .exit ∉ pre) :
    ∃ sent, p.io.accepted = io.accepted ++ sent ∧
      (Spec.answered sent).Perm ((Spec.requests pre).map Request.id ++ [sid]) := by
  obtain ⟨sent, l, _, h2, h3, h4, h5, _⟩ := C121_shutdown hio hx ht hw hwk he h ha hl hq hb hc hs hxp
  refine ⟨sent, h2, ((merged_perm h5).filterMap _).trans ?_⟩
  have : ∀ l : List (Request × List Message), (∀ x ∈ l, work x.1 x.2) →
      Spec.answered (l.map (·.2)).flatten = (l.map (·.1)).map Request.id := by
    intro l hl
    induction l with
    | nil => rfl
    | cons x l ih =>
      have h6 := hwo _ _ (hl x (by simp))
      have h7 := ih fun y hy => hl y (by simp [hy])
      simp only [Spec.answered] at h6 h7 ⊢
      simp only [List.map_cons, List.flatten_cons, List.filterMap_append, h6, h7, List.singleton_append]
  have h6 := this l h4
  simp only [Spec.answered] at h6
  rw [List.flatten_cons, List.filterMap_append, h6, h3]
  exact List.perm_append_comm

/-! ### Every run comes to rest -/

/-- What is left to be done, in three parts: with what is read and received; by the threads; with what is to be
written. -/
def crewWork (p : Crew.State) : Nat × Nat × Nat :=
  (10 * p.io.unread.length +
    (match p.io.reader with | .reading => 3 | .sending _ => 6 | _ => 0) +
    workerWork p.main + p.io.rxAlive.toNat + p.io.txAlive.toNat,
   (p.jobs.map fun j => j.left.length).sum, workLeft p.io.writer)

theorem crewWork_decreases {p q : Crew.State} {a : Pool.Act} (h : Crew.Step k work p a q) (ha : a ≠ .peer) :
    Prod.Lex (· < ·) (Prod.Lex (· < ·) (· < ·)) (crewWork q) (crewWork p) := by
  cases h with
  | io h2 h3 =>
    cases h2 with
    | arrive bs _ => simp [Pool.kindOf] at h3; exact absurd h3.symm ha
    | hangUp b _ => simp [Pool.kindOf] at h3; exact absurd h3.symm ha
    | read r hr hs =>
      left
      cases r with
      | item m rest =>
        obtain ⟨f, cs, j, hf, _, _, _, hu⟩ := settled_item hs
        have := frame_nonempty hf
        simp only [afterRead, hr, hu, List.length_append]
        omega
      | _ => cases k <;> simp only [afterRead, readError, hr] <;> omega
    | deliver m _ _ => simp [Pool.kindOf] at h3
    | undeliverable m hr _ => left; simp only [hr]; omega
    | dropRx => simp [Pool.kindOf] at h3
    | accept m _ _ => simp [Pool.kindOf] at h3
    | write a b hw hne =>
      have : 0 < a.length := by cases a <;> simp_all
      refine (Prod.lex_def).2 (.inr ⟨rfl, (Prod.lex_def).2 (.inr ⟨rfl, ?_⟩)⟩)
      simp only [crewWork, workLeft, hw, List.length_append]
      omega
    | written hw =>
      refine (Prod.lex_def).2 (.inr ⟨rfl, (Prod.lex_def).2 (.inr ⟨rfl, ?_⟩)⟩)
      simp [crewWork, workLeft, hw]
    | writeFails b hw =>
      refine (Prod.lex_def).2 (.inr ⟨rfl, (Prod.lex_def).2 (.inr ⟨rfl, ?_⟩)⟩)
      cases k <;> simp [crewWork, workLeft, hw, writeError]
    | dropTx => simp [Pool.kindOf] at h3
    | close hw _ =>
      refine (Prod.lex_def).2 (.inr ⟨rfl, (Prod.lex_def).2 (.inr ⟨rfl, ?_⟩)⟩)
      simp [crewWork, workLeft, hw]
  | @recv p m io' h2 h3 h4 =>
    cases h3 with
    | deliver hx hr =>
      left
      simp only [hr, afterSend]
      generalize Crew.onRecv p.main (some m) = y at *
      generalize p.main = x at *
      cases x <;> simp [App.receives] at h2 <;> cases y <;> cases isExit m <;> simp [workerWork] <;> omega
  | @hire p m io' r ms h2 h3 h4 h5 =>
    cases h3 with
    | deliver hx hr =>
      left
      simp only [hr, afterSend]
      cases isExit m <;> simp <;> omega
  | @closed p h2 h3 =>
    left
    obtain ⟨r, h4⟩ : ∃ r, Crew.onRecv p.main none = .ended r := onRecv_none h2
    simp only [h4]
    generalize p.main = x at *
    cases x <;> simp [App.receives] at h2 <;> simp [workerWork] <;> omega
  | @reply p m io' h2 h3 =>
    cases h3 with
    | accept _ hw hx =>
      left
      simp only
      generalize p.main = x at *
      cases x <;> simp [toSend] at h2 <;> simp [onSent, workerWork] <;> omega
  | @noReply p m h2 h3 =>
    left
    simp only
    generalize p.main = x at *
    cases x <;> simp [toSend] at h2 <;> simp [onSent, workerWork] <;> omega
  | send h3 =>
    cases h3 with
    | accept _ hw hx =>
      refine (Prod.lex_def).2 (.inr ⟨rfl, (Prod.lex_def).2 (.inl ?_)⟩)
      simp [crewWork]
  | unsent h3 =>
    refine (Prod.lex_def).2 (.inr ⟨rfl, (Prod.lex_def).2 (.inl ?_)⟩)
    simp [crewWork]
  | @timeout p h2 =>
    left
    simp [h2, workerWork]
  | dropRx h2 h3 => left; simp [h3]
  | dropTx h2 h4 h3 => left; simp [h3]

/-- C121: there is no infinite run without input, however much the threads have to send. -/
theorem C121_terminates (k : Kind) (work : Request → List Message → Prop) :
    WellFounded fun q p : Crew.State => ∃ a, a ≠ .peer ∧ Crew.Step k work p a q :=
  Subrelation.wf (fun ⟨_, ha, h⟩ => crewWork_decreases h ha)
    (InvImage.wf crewWork (Prod.lex ⟨_, Nat.lt_wfRel.wf⟩ (Prod.lex ⟨_, Nat.lt_wfRel.wf⟩ ⟨_, Nat.lt_wfRel.wf⟩)).wf)

theorem crew_cons {p q r : Crew.State} {a : Pool.Act} {as : List Pool.Act}
    (h1 : Crew.Step k work p a q) (h2 : Crew.Steps k work q as r) : Crew.Steps k work p (a :: as) r := by
  induction h2 with
  | nil => exact Crew.Steps.snoc (.nil _) h1
  | snoc _ h4 ih => exact Crew.Steps.snoc ih h4

/-- C121: from wherever it is, the server can come to rest by itself: without input, without waiting for the time limit
and without a failing write. -/
theorem C121_settles (k : Kind) (work : Request → List Message → Prop) (p : Crew.State) :
    ∃ as q, Crew.Steps k work p as q ∧ Crew.Quiet k work q ∧ ∀ a ∈ as, a ≠ .peer ∧ a ≠ .timeout ∧ a ≠ .writeFails := by
  refine (C121_terminates k work).induction (C := fun p => ∃ as q, Crew.Steps k work p as q ∧
    Crew.Quiet k work q ∧ ∀ a ∈ as, a ≠ .peer ∧ a ≠ .timeout ∧ a ≠ .writeFails) p ?_
  intro p ih
  by_cases hq : Crew.Quiet k work p
  · exact ⟨[], p, .nil p, hq, by simp⟩
  have : ∃ a q, Crew.Step k work p a q ∧ a ≠ .peer ∧ a ≠ .timeout ∧ a ≠ .writeFails := by
    simp only [Crew.Quiet, Classical.not_forall, not_or] at hq
    obtain ⟨a, q, h1, h2, h3⟩ := hq
    by_cases ha : a = .writeFails
    · subst ha
      cases h1 with
      | io hs hk =>
        cases hs with
        | writeFails b hw =>
          cases b with
          | nil => exact ⟨_, _, .io (.written _ hw) rfl, by simp, by simp, by simp⟩
          | cons y b => exact ⟨_, _, .io (.write _ [y] b hw (by simp)) rfl, by simp, by simp, by simp⟩
        | _ => simp [Pool.kindOf] at hk
    · exact ⟨a, q, h1, h2, h3, ha⟩
  obtain ⟨a, q, h1, h2⟩ := this
  obtain ⟨as, r, h3, h4, h5⟩ := ih q ⟨a, h2.1, h1⟩
  refine ⟨a :: as, r, crew_cons h1 h3, h4, ?_⟩
  intro b hb
  rcases List.mem_cons.1 hb with rfl | hb
  · exact h2
  · exact h5 b hb

/-! ### After exit -/

theorem crew_append {p q r : Crew.State} {as bs : List Pool.Act} (h1 : Crew.Steps k work p as q)
    (h2 : Crew.Steps k work q bs r) : Crew.Steps k work p (as ++ bs) r := by
  induction h2 with
  | nil => simpa using h1
  | snoc _ h4 ih => rw [← List.append_assoc]; exact .snoc ih h4

/-- The writer can finish what it is writing. -/
theorem crew_writes {p : Crew.State} {rest : Bytes} (h : p.io.writer = .writing rest) :
    ∃ as, Crew.Steps k work p as { p with io := { p.io with writer := .idle, out := p.io.out ++ rest } } ∧
      ∀ a ∈ as, a = .thread := by
  cases rest with
  | nil =>
    refine ⟨[.thread], ?_, by simp⟩
    have : Crew.Steps k work p [.thread] { p with io := { p.io with writer := .idle } } :=
      crew_cons (.io (.written _ h) rfl) (.nil _)
    simpa using this
  | cons y rest =>
    exact ⟨_, crew_cons (.io (.write _ (y :: rest) [] (by simpa using h) (by simp)) rfl)
      (crew_cons (.io (.written _ rfl) rfl) (.nil _)), by simp⟩

/-- A thread can send all it has to send. -/
theorem crew_sends {main : App} {mine : List Message} {r : Request} (ms : List Message) :
    ∀ (io : Transport.State) (s : List Message), io.writer = .idle → io.txAlive = true →
    ∃ as, Crew.Steps k work ⟨io, main, mine, [⟨r, s, ms, []⟩]⟩ as
        ⟨{ io with accepted := io.accepted ++ ms, out := io.out ++ ms.flatMap Frame.write }, main, mine,
          [⟨r, s ++ ms, [], []⟩]⟩ ∧
      ∀ a ∈ as, a = .thread ∨ a = .worker := by
  induction ms with
  | nil => intro io s hw ht; exact ⟨[], by simpa using Crew.Steps.nil _, by simp⟩
  | cons m ms ih =>
    intro io s hw ht
    let io1 : Transport.State := { io with writer := .writing (Frame.write m), accepted := io.accepted ++ [m] }
    have h1 : Crew.Step k work ⟨io, main, mine, [⟨r, s, m :: ms, []⟩]⟩ .worker ⟨io1, main, mine, [⟨r, s ++ [m], ms, []⟩]⟩ :=
      .send (a := []) (b := []) (.accept _ m hw ht)
    obtain ⟨as2, h2, n2⟩ := crew_writes (k := k) (work := work) (p := ⟨io1, main, mine, [⟨r, s ++ [m], ms, []⟩]⟩) rfl
    obtain ⟨as3, h3, n3⟩ := ih { io1 with writer := .idle, out := io1.out ++ Frame.write m } (s ++ [m]) rfl ht
    refine ⟨_, crew_cons h1 (crew_append h2 (by simpa [io1, hw] using h3)), ?_⟩
    intro a ha
    simp only [List.mem_cons, List.mem_append] at ha
    rcases ha with ha | ha | ha
    · exact .inr ha
    · exact .inl (n2 a ha)
    · exact n3 a ha

omit [Dbg] in
/-- The last message carried can be read. -/
theorem carries_last {bs : Bytes} {ms : List Message} {m : Message} (h : Spec.Carries bs (ms ++ [m])) :
    ∃ b f, bs = b ++ f ∧ Spec.Carries b ms ∧ ∀ s : Transport.State, s.reader = .reading → ∀ rest, s.unread = f ++ rest →
      Transport.Step k s .read { s with reader := .sending m, unread := rest } := by
  generalize h0 : ms ++ [m] = ms0 at h
  cases h with
  | nil => simp at h0
  | @snoc bs' ms' f cs j m' hb hf hl hj hd =>
    obtain ⟨rfl, h1⟩ := List.append_inj' h0 rfl
    obtain rfl := List.cons.inj h1 |>.1
    refine ⟨bs', f, rfl, hb, ?_⟩
    intro s hr rest hu
    obtain ⟨⟨s', h3⟩, h4⟩ := C51_progress (k := k) (s := s) hr hu hf hl hj hd
    rwa [h4 s' h3] at h3

/-- C121: what a thread has to send may all be sent after the answer to shutdown, and after exit has been received. -/
theorem C121_late {io : Transport.State} (hio : Spec.Resting io) {r : Request} {ms : List Message} {sid : RequestId}
    {bs : Bytes} (hn : ∀ id, r ≠ .shutdown id) (hwk : work r ms)
    (hc : Spec.Carries bs [.request r, .request (.shutdown sid), .notification .exit]) :
    ∃ as p as' q, Crew.Steps k work { io := io } as p ∧ p.main = .ended (.ok ()) ∧
      p.io.accepted = io.accepted ++ [Spec.goodbye sid] ∧
      Crew.Steps k work p as' q ∧ q.main = .ended (.ok ()) ∧ q.io.accepted = io.accepted ++ Spec.goodbye sid :: ms ∧
      q.io.out = io.out ++ (Spec.goodbye sid :: ms).flatMap Frame.write := by
  obtain ⟨b12, f3, rfl, hc, r3⟩ := carries_last (k := k) (ms := [.request r, .request (.shutdown sid)]) hc
  obtain ⟨b1, f2, rfl, hc, r2⟩ := carries_last (k := k) (ms := [.request r]) hc
  obtain ⟨b0, f1, rfl, hc, r1⟩ := carries_last (k := k) (ms := []) hc
  have hb0 : b0 = [] := by
    generalize h0 : ([] : List Message) = l at hc
    cases hc with
    | nil => rfl
    | snoc => simp at h0
  subst hb0
  obtain ⟨hr, hu, hi, hx, hw, ht⟩ := hio
  let s1 : Transport.State :=
    { io with arrived := io.arrived ++ ([] ++ f1 ++ f2 ++ f3), unread := io.unread ++ ([] ++ f1 ++ f2 ++ f3) }
  have t1 : Crew.Step k work { io := io } .peer { io := s1 } := .io (.arrive _ _ hi) rfl
  let s2 : Transport.State := { s1 with reader := .sending (.request r), unread := f2 ++ f3 }
  have t2 : Crew.Step k work { io := s1 } .thread { io := s2 } := .io (r1 s1 hr _ (by simp [s1, hu])) rfl
  let s3 : Transport.State := { s2 with reader := .reading, delivered := s2.delivered ++ [.request r] }
  have t3 : Crew.Step k work { io := s2 } .worker { io := s3, jobs := [⟨r, [], ms, []⟩] } :=
    .hire (p := { io := s2 }) rfl (.deliver s2 (.request r) rfl hx)
      (by cases r with | shutdown id => exact absurd rfl (hn id) | _ => rfl) hwk
  let s4 : Transport.State := { s3 with reader := .sending (.request (.shutdown sid)), unread := f3 }
  have t4 : Crew.Step k work { io := s3, jobs := [⟨r, [], ms, []⟩] } .thread { io := s4, jobs := [⟨r, [], ms, []⟩] } :=
    .io (r2 s3 rfl _ rfl) rfl
  let s5 : Transport.State := { s4 with reader := .reading, delivered := s4.delivered ++ [.request (.shutdown sid)] }
  have t5 : Crew.Step k work { io := s4, jobs := [⟨r, [], ms, []⟩] } .worker
      { io := s5, main := .stopping sid, jobs := [⟨r, [], ms, []⟩] } :=
    .recv (p := { io := s4, jobs := [⟨r, [], ms, []⟩] }) rfl (.deliver s4 (.request (.shutdown sid)) rfl hx)
      (by intro r h; cases h)
  let s6 : Transport.State := { s5 with writer := .writing (Frame.write (Spec.goodbye sid)),
                                        accepted := s5.accepted ++ [Spec.goodbye sid] }
  have t6 : Crew.Step k work { io := s5, main := .stopping sid, jobs := [⟨r, [], ms, []⟩] } .worker
      { io := s6, main := .leaving, mine := [Spec.goodbye sid], jobs := [⟨r, [], ms, []⟩] } :=
    .reply (p := { io := s5, main := .stopping sid, jobs := [⟨r, [], ms, []⟩] }) rfl (.accept s5 _ hw ht)
  obtain ⟨as7, t7, _⟩ := crew_writes (k := k) (work := work)
    (p := { io := s6, main := .leaving, mine := [Spec.goodbye sid], jobs := [⟨r, [], ms, []⟩] }) rfl
  let s7 : Transport.State := { s6 with writer := .idle, out := s6.out ++ Frame.write (Spec.goodbye sid) }
  let s8 : Transport.State := { s7 with reader := .sending (.notification .exit), unread := [] }
  have t8 : Crew.Step k work { io := s7, main := .leaving, mine := [Spec.goodbye sid], jobs := [⟨r, [], ms, []⟩] } .thread
      { io := s8, main := .leaving, mine := [Spec.goodbye sid], jobs := [⟨r, [], ms, []⟩] } :=
    .io (r3 s7 rfl [] (by simp [s7, s6, s5, s4])) rfl
  let s9 : Transport.State := { s8 with reader := .done, delivered := s8.delivered ++ [.notification .exit] }
  have t9 : Crew.Step k work { io := s8, main := .leaving, mine := [Spec.goodbye sid], jobs := [⟨r, [], ms, []⟩] } .worker
      { io := s9, main := .ended (.ok ()), mine := [Spec.goodbye sid], jobs := [⟨r, [], ms, []⟩] } :=
    .recv (p := { io := s8, main := .leaving, mine := [Spec.goodbye sid], jobs := [⟨r, [], ms, []⟩] }) rfl
      (.deliver s8 (.notification .exit) rfl hx) (by intro r h; cases h)
  obtain ⟨as10, t10, _⟩ := crew_sends (k := k) (work := work) (main := .ended (.ok ())) (mine := [Spec.goodbye sid]) (r := r)
    ms s9 [] rfl ht
  refine ⟨_, _, _, _, crew_cons t1 (crew_cons t2 (crew_cons t3 (crew_cons t4 (crew_cons t5 (crew_cons t6
    (crew_append t7 (crew_cons t8 (crew_cons t9 (.nil _))))))))), rfl, ?_, t10, rfl, ?_, ?_⟩
  · simp [s9, s8, s7, s6, s5, s4, s3, s2, s1]
  · simp [s9, s8, s7, s6, s5, s4, s3, s2, s1]
  · simp [s9, s8, s7, s6, s5, s4, s3, s2, s1]

end

/-! ### Concrete cases -/

section
attribute [local instance] Ext.sample FloatText.sample Dbg.sample

/-- A thread sends some notifications and then answers its request. -/
def sampleWork (r : Request) (ms : List Message) : Prop :=
  ∃ ns : List Notification, ms = ns.map .notification ++ [.response ⟨r.id, some Value.null, none⟩]

theorem sampleWork_some (r : Request) : ∃ ms, sampleWork r ms := ⟨_, [], rfl⟩

theorem sampleWork_once (r : Request) (ms : List Message) (h : sampleWork r ms) : Spec.answered ms = [r.id] := by
  obtain ⟨ns, rfl⟩ := h
  simp [Spec.answered, List.filterMap_append, List.filterMap_map, Function.comp_def]

theorem crew_arrived {work : Request → List Message → Prop} {p q : Crew.State} {as : List Pool.Act}
    (h : Crew.Steps k work p as q) (hp : Pool.Act.peer ∉ as) :
    q.io.arrived = p.io.arrived ∧ q.io.inEnd = p.io.inEnd := by
  induction h with
  | nil => exact ⟨rfl, rfl⟩
  | snoc _ h2 ih =>
    simp only [List.mem_append, List.mem_singleton, not_or] at hp
    have ih := ih hp.1
    cases h2 with
    | io hs hk =>
      cases hs with
      | arrive _ _ => simp [Pool.kindOf] at hk; exact absurd hk hp.2
      | hangUp _ _ => simp [Pool.kindOf] at hk; exact absurd hk hp.2
      | read r _ _ => cases r <;> exact ih
      | _ => exact ih
    | recv _ hs => cases hs with | deliver _ _ _ => exact ih
    | hire _ hs => cases hs with | deliver _ _ _ => exact ih
    | reply _ hs => cases hs with | accept _ _ _ => exact ih
    | send hs => cases hs with | accept _ _ _ => exact ih
    | _ => exact ih

/-- Bytes arrive and the threads do what there is to do. -/
theorem sampleCrew_run (k : Kind) (bs : Bytes) : ∃ as p, Crew.Steps k sampleWork { io := {} } as p ∧
    Pool.Act.writeFails ∉ as ∧ Pool.Act.timeout ∉ as ∧ Crew.Quiet k sampleWork p ∧ p.io.arrived = bs ∧ p.io.inEnd = none := by
  obtain ⟨as, q, h1, h2, h3⟩ := C121_settles k sampleWork { io := { arrived := bs, unread := bs } }
  have h4 : Crew.Step k sampleWork { io := {} } .peer { io := { arrived := bs, unread := bs } } :=
    .io (.arrive _ bs rfl) rfl
  obtain ⟨h5, h6⟩ := crew_arrived h1 (fun h => (h3 _ h).1 rfl)
  refine ⟨_, q, crew_cons h4 h1, ?_, ?_, h2, h5, h6⟩
  · simp only [List.mem_cons, reduceCtorEq, false_or]
    exact fun h => (h3 _ h).2.2 rfl
  · simp only [List.mem_cons, reduceCtorEq, false_or]
    exact fun h => (h3 _ h).2.1 rfl

/-- Beside C121: two requests, shutdown and exit, and ten bytes more: `join` returns well and each request has been
answered once, in some order. -/
example (k : Kind) : ∃ as p, Crew.Steps k sampleWork { io := {} } as p ∧ join k p.io = .ok ∧ p.main = .ended (.ok ()) ∧
    (Spec.answered p.io.accepted).Perm [.i32 2, .str "a", .i32 3] := by
  obtain ⟨as, p, h1, h2, h3, h4, h5, _⟩ := sampleCrew_run k (framed (samplePool ++ sampleLeave) ++ List.replicate 10 0)
  have hw : ({} : Transport.State).writer ≠ writeError k := by cases k <;> simp [writeError]
  obtain ⟨sent, l, _, _, _, _, _, _, h6, h7⟩ := C121_shutdown (reachable_start k) rfl rfl hw sampleWork_some
    (by simp) h1 h2 h3 h4 (pre := samplePool.map Prod.snd) (sid := .i32 3) h5 samplePool_carries.2.2
    (by simp [Spec.NoShutdown, samplePool]) (by simp [samplePool])
  obtain ⟨sent', h8, h9⟩ := C121_once (reachable_start k) rfl rfl hw sampleWork_some sampleWork_once
    (by simp) h1 h2 h3 h4 (pre := samplePool.map Prod.snd) (sid := .i32 3) h5 samplePool_carries.2.2
    (by simp [Spec.NoShutdown, samplePool]) (by simp [samplePool])
  exact ⟨as, p, h1, h7, h6, by rw [show p.io.accepted = sent' by simpa using h8]; exact h9⟩

/-- Beside C121: the same input; the main thread ends well, and C121_ok gives back what it has received. -/
example (k : Kind) : ∃ as p, Crew.Steps k sampleWork { io := {} } as p ∧ p.main = .ended (.ok ()) ∧
    ∃ pre id, p.io.delivered = pre ++ [.request (.shutdown id), .notification .exit] ∧ Spec.NoShutdown pre := by
  obtain ⟨as, p, h1, h2, h3, h4, h5, _⟩ := sampleCrew_run k (framed (samplePool ++ sampleLeave))
  have hw : ({} : Transport.State).writer ≠ writeError k := by cases k <;> simp [writeError]
  obtain ⟨sent, l, h6, _, _, _, _, _, h7, _⟩ := C121_shutdown (reachable_start k) rfl rfl hw sampleWork_some
    (by simp) h1 h2 h3 h4 (pre := samplePool.map Prod.snd) (sid := .i32 3) (rest := []) (by simpa using h5)
    samplePool_carries.2.2 (by simp [Spec.NoShutdown, samplePool]) (by simp [samplePool])
  obtain ⟨ds, h8, h9⟩ := C121_ok (reachable_start k) rfl rfl h1 h7
  rcases h9 with ⟨pre, id, h9, h10⟩ | ⟨h9, _⟩
  · exact ⟨as, p, h1, h7, pre, id, by rw [h8, h9]; rfl, h10⟩
  · have : ds = p.io.delivered := by simpa using h8.symm
    exact absurd (by rw [this, h6]; simp) (h9 (.i32 3))

/-- Beside C121: two requests; the main thread waits for more, and for each of them one thread has sent all it had to
send. -/
example (k : Kind) : ∃ as p l1 l2, Crew.Steps k sampleWork { io := {} } as p ∧ p.main = .idle ∧
    sampleWork (.workspaceBuildTargets (.i32 2)) l1 ∧ sampleWork (.workspaceReload (.str "a")) l2 ∧
    Spec.Merged [l1, l2] p.io.accepted ∧ p.io.out = p.io.accepted.flatMap Frame.write := by
  obtain ⟨as, p, h1, h2, _, h3, h4, h5⟩ := sampleCrew_run k (framed samplePool)
  have hw : ({} : Transport.State).writer ≠ writeError k := by cases k <;> simp [writeError]
  have hr : Reachable k p.io := by
    obtain ⟨ds, sent, I⟩ := crewInv (reachable_start k) rfl rfl h1
    exact I.reach
  have hpre : p.io.delivered <+: samplePool.map (·.2) := by
    have := C51_prefix hr [] false
    rw [h4, readAll_carries samplePool_carries.1] at this
    simpa [Frame.readAll, readAll_eq, (readMsg_nil).1] using this
  have hns : Spec.NoShutdown p.io.delivered := by
    intro id h
    have := hpre.subset h
    simp [samplePool] at this
  obtain ⟨ds, sent, l, h6, h7, h8, h9, h10, h11, h12⟩ := C121_rest (reachable_start k) rfl rfl hw sampleWork_some
    h1 h2 h3 (by simpa using hns)
  have hd : p.io.delivered = ds := by simpa using h6
  have ha : p.io.accepted = sent := by simpa using h7
  rcases h12 with ⟨h13, _, h14⟩ | ⟨_, _, h13⟩
  · have h15 := h14 _ _ [] (by rw [h4]; simp) samplePool_carries.1
    have h16 : ds = samplePool.map (·.2) := by
      rw [← hd]; exact hpre.eq_of_length_le h15.length_le
    rw [h16] at h8
    match l, h8, h9, h10 with
    | [(r1, l1), (r2, l2)], h8, h9, h10 =>
      simp only [List.map_cons, List.map_nil, samplePool, Spec.requests, List.cons.injEq, and_true] at h8
      obtain ⟨rfl, rfl⟩ := h8
      exact ⟨as, p, l1, l2, h1, h13, h9 (_, l1) (by simp), h9 (_, l2) (by simp), by rw [ha]; exact h10, h11⟩
  · exfalso
    rcases h13 with h11 | ⟨stop, h11⟩
    · have := hpre.subset h11
      simp [samplePool] at this
    · simp only [Spec.Input, h5] at h11
      have e1 := congrArg (·.2) (h11 [] false)
      have e2 := congrArg (·.2) (h11 [] true)
      rw [h4, readAll_carries samplePool_carries.1] at e1 e2
      simp [readAll_eq, (readMsg_nil).1, (readMsg_nil).2] at e1 e2
      rw [← e1] at e2
      cases e2

/-- Beside C121: a request, shutdown and exit; the thread for the request sends a notification and its answer after all of
that, and C121_sent describes where things stand. -/
example (k : Kind) : ∃ as q, Crew.Steps k sampleWork { io := {} } as q ∧
    q.io.accepted = [Spec.goodbye (.i32 3), .notification .exit, .response ⟨.str "a", some Value.null, none⟩] ∧
    ∃ pre post sent mine l, q.io.delivered = pre ++ post ∧ l.map (·.1) = Spec.requests pre ∧
      Spec.Merged (mine :: l.map (·.2.1)) sent ∧ q.io.accepted = sent ∧
      ∀ x ∈ (l : List (Request × List Message × List Message)), sampleWork x.1 (x.2.1 ++ x.2.2) := by
  obtain ⟨as, p, as', q, h1, _, _, h2, _, h3, _⟩ := C121_late (k := k) (work := sampleWork) resting_start
    (r := .workspaceReload (.str "a")) (ms := [.notification .exit, .response ⟨.str "a", some Value.null, none⟩])
    (sid := .i32 3) (bs := framed (samplePool.drop 1 ++ sampleLeave)) (by simp) ⟨[.exit], rfl⟩
    (carries_framed fun x hx => samplePool_ok x
      ((List.Sublist.append (List.drop_sublist 1 samplePool) (List.Sublist.refl sampleLeave)).subset hx))
  obtain ⟨pre, post, sent, mine, l, h4, h5, _, h6, h7, h8, _⟩ := C121_sent (reachable_start k) rfl rfl (crew_append h1 h2)
  exact ⟨_, q, crew_append h1 h2, by simpa using h3, pre, post, sent, mine, l, by simpa using h4, h6, h8, by simpa using h5, h7⟩

/-- Beside C121: no run from here is infinite unless the client sends. -/
example (k : Kind) : Acc (fun q p : Crew.State => ∃ a, a ≠ .peer ∧ Crew.Step k sampleWork p a q) { io := {} } :=
  (C121_terminates k sampleWork).apply _

end
end Bsp
