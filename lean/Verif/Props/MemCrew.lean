/-
C138: one thread receives, the threads it starts send, on one end of `Connection::memory`.
-/
import Verif.MemCrew
import Verif.Props.MemPool
import Verif.Props.Crew

set_option linter.unusedSectionVars false

namespace Bsp
open Conn Session Mem

section
variable [Ext] [Dbg] {side : Side} {process : InitializeBuild → Option Value} {work : Request → List Message → Prop}

/-! ### What holds at any time -/

/-- What the main thread has sent after a request to shut down. -/
def MemReplied (side : Side) (q : MemSession.Proc) (id : RequestId) (mine : List Message) : Prop :=
  mine = [Spec.goodbye id] ∨ mine = [] ∧ ¬ Spec.Listens side q

/-- The tester has nothing more to send, and all it has sent has been received. -/
def MemOver (side : Side) (q : MemSession.Proc) : Prop :=
  ¬ Spec.Talks side q ∧ Spec.received side q = Spec.given side q

/-- Where the main thread is and what it has sent, given the messages it has received and the requests for which there
are threads. -/
inductive MemStage (side : Side) (as : List MemSession.Act) (q : MemSession.Proc) (reqs : List Request)
    (ds : List Message) : App → List Message → Prop
  | idle : Spec.NoShutdown ds → reqs = Spec.requests ds → MemStage side as q reqs ds .idle []
  | closed : Spec.NoShutdown ds → reqs = Spec.requests ds → MemOver side q →
      MemStage side as q reqs ds (.ended (.ok ())) []
  | stopping {pre id} : ds = pre ++ [.request (.shutdown id)] → Spec.NoShutdown pre → reqs = Spec.requests pre →
      MemStage side as q reqs ds (.stopping id) []
  | leaving {pre id mine} : ds = pre ++ [.request (.shutdown id)] → Spec.NoShutdown pre → reqs = Spec.requests pre →
      MemReplied side q id mine → MemStage side as q reqs ds .leaving mine
  | ended {pre id mine m r} : ds = pre ++ [.request (.shutdown id), m] → Spec.NoShutdown pre →
      reqs = Spec.requests pre → MemReplied side q id mine →
      (m = .notification .exit ∧ r = .ok () ∨ m ≠ .notification .exit ∧ r ≠ .ok ()) →
      MemStage side as q reqs ds (.ended r) mine
  | cut {pre id mine e} : ds = pre ++ [.request (.shutdown id)] → Spec.NoShutdown pre → reqs = Spec.requests pre →
      MemReplied side q id mine → (MemOver side q ∨ MemSession.Act.timeout ∈ as) →
      MemStage side as q reqs ds (.ended (.err e)) mine

theorem MemStage.mono {as as' : List MemSession.Act} {q q' : MemSession.Proc} {reqs : List Request} {ds : List Message}
    {a : App} {mine : List Message} (h : MemStage side as q reqs ds a mine)
    (h2 : MemOver side q → MemOver side q') (h3 : ¬ Spec.Listens side q → ¬ Spec.Listens side q')
    (h4 : ∀ x ∈ as, x ∈ as') : MemStage side as' q' reqs ds a mine := by
  have hr : ∀ {id mine}, MemReplied side q id mine → MemReplied side q' id mine := by
    rintro id mine (h | ⟨h, h'⟩)
    · exact .inl h
    · exact .inr ⟨h, h3 h'⟩
  cases h with
  | idle h5 h6 => exact .idle h5 h6
  | closed h5 h6 h8 => exact .closed h5 h6 (h2 h8)
  | stopping h5 h6 h7 => exact .stopping h5 h6 h7
  | leaving h5 h6 h7 h8 => exact .leaving h5 h6 h7 (hr h8)
  | ended h5 h6 h7 h8 h9 => exact .ended h5 h6 h7 (hr h8) h9
  | cut h5 h6 h7 h8 h9 => exact .cut h5 h6 h7 (hr h8) (h9.imp h2 (h4 _))

/-- The invariant. -/
structure MemCrewInv (side : Side) (work : Request → List Message → Prop) (p0 : MemSession.Proc)
    (as : List MemSession.Act) (p : MemCrew.State) (ds sent : List Message) : Prop where
  mem : Inv p.proc.mem p.proc.seen
  rx : (∀ r, p.proc.app ≠ .ended r) → Spec.receivers side 1 p.proc.seen = 1
  tx : ((∀ r, p.proc.app ≠ .ended r) ∨ ∃ j ∈ p.jobs, j.left ≠ []) → Spec.senders side 1 p.proc.seen = 1
  delivered : Spec.received side p.proc = Spec.received side p0 ++ ds
  accepted : Spec.replied side p.proc = Spec.replied side p0 ++ sent
  merged : Spec.Merged (p.mine :: p.jobs.map (·.sent)) sent
  works : ∀ j ∈ p.jobs, work j.req (j.sent ++ (j.left ++ j.lost))
  lost : ∀ j ∈ p.jobs, j.lost ≠ [] → j.left = [] ∧ ¬ Spec.Listens side p.proc
  stage : MemStage side as p.proc (p.jobs.map (·.req)) ds p.proc.app p.mine

/-- What an operation of the threads does not change. -/
theorem own_over {q : MemSession.Proc} {op : Op} (hr : Spec.received side (q.does side op) = Spec.received side q) :
    MemOver side q → MemOver side (q.does side op) := by
  obtain ⟨s1, s2, _⟩ := own_same (side := side) q op
  rintro ⟨h1, h2⟩
  exact ⟨by rwa [s2], by rw [hr, s1, h2]⟩

theorem memCrewInv {p0 : MemSession.Proc} {as0 : List MemSession.Act} {p : MemCrew.State} {as : List MemSession.Act}
    (h0 : MemSession.Steps side process {} as0 p0) (hidle : p0.app = .idle)
    (h : MemCrew.Steps side work { proc := p0 } as p) : ∃ ds sent, MemCrewInv side work p0 as p ds sent := by
  generalize hp : ({ proc := p0 } : MemCrew.State) = p1 at h
  induction h with
  | nil =>
    subst hp
    have hi := mem_inv h0
    have hown := hi.own (by simp [hidle])
    exact ⟨[], [], hi.mem, fun _ => hown.2, fun _ => hown.1, by simp, by simp, .nil (by simp), by simp, by simp,
      by rw [hidle]; exact .idle (by simp [Spec.NoShutdown]) rfl⟩
  | @snoc as q act r h1 h2 ih =>
    obtain ⟨ds, sent, I⟩ := ih
    cases h2 with
    | tester _ op =>
      obtain ⟨e1, e2, e3, e4, e5, e6⟩ := tester_does (side := side) I.mem op
      refine ⟨ds, sent, inv_step I.mem _ _, fun h => e4.trans (I.rx h), fun h => e3.trans (I.tx h), e1.trans I.delivered,
        e2.trans I.accepted, I.merged, I.works, fun j hj hl => ⟨(I.lost j hj hl).1, e5 (I.lost j hj hl).2⟩, ?_⟩
      exact I.stage.mono (fun ⟨x, y⟩ => ⟨(e6 x).1, by rw [e1, (e6 x).2, y]⟩) e5 (by simp_all)
    | @recv q m h3 h4 h5 =>
      obtain ⟨s1, s2, s3⟩ := own_same (side := side) q.proc .recv
      have hr : Spec.received side (q.proc.does side .recv) = Spec.received side q.proc ++ [m] := by
        simp [Spec.received, does_seen, h4, receivedBy_append, Spec.receivedBy]
      have hp : Spec.replied side (q.proc.does side .recv) = Spec.replied side q.proc := by
        simp [Spec.replied, does_seen, h4, sentBy_append, Spec.sentBy]
      have hne : ∀ r, q.proc.app ≠ .ended r := fun r h => by rw [h] at h3; cases h3
      have hrx : Spec.receivers side 1 (q.proc.does side .recv).seen = 1 := by
        simp [does_seen, h4, receivers_append, Spec.receivers, I.rx hne]
      have htx : Spec.senders side 1 (q.proc.does side .recv).seen = 1 := by
        simp [does_seen, h4, senders_append, Spec.senders, I.tx (.inl hne)]
      have hlis : ¬ Spec.Listens side q.proc → ¬ Spec.Listens side (q.proc.does side .recv) := by rw [s3]; exact id
      have hst := I.stage
      have hrep : ∀ {app id mine}, MemReplied side q.proc id mine →
          MemReplied side { q.proc.does side .recv with app := app } id mine := by
        rintro app id mine (h | ⟨h, h'⟩)
        · exact .inl h
        · exact .inr ⟨h, hlis h'⟩
      refine ⟨ds ++ [m], sent, inv_step I.mem _ _, fun _ => hrx, fun _ => htx, ?_, hp.trans I.accepted, I.merged, I.works,
        fun j hj hl => ⟨(I.lost j hj hl).1, hlis (I.lost j hj hl).2⟩, ?_⟩
      · exact hr.trans (by rw [I.delivered, List.append_assoc])
      · show MemStage side _ _ _ _ (Crew.onRecv q.proc.app (some m)) q.mine
        generalize hx : q.proc.app = x at *
        generalize q.mine = mine at *
        cases hst with
        | idle h8 h9 =>
          match m with
          | .request (.shutdown id) => exact .stopping rfl h8 h9
          | .notification n =>
            refine .idle ?_ (by rw [reqs_append]; simpa [Spec.requests] using h9)
            intro id h
            rcases List.mem_append.1 h with h | h
            · exact h8 id h
            · simp at h
          | .response n =>
            refine .idle ?_ (by rw [reqs_append]; simpa [Spec.requests] using h9)
            intro id h
            rcases List.mem_append.1 h with h | h
            · exact h8 id h
            · simp at h
          | .request req =>
            cases req with
            | shutdown id => exact .stopping rfl h8 h9
            | _ => exact absurd rfl (h5 _)
        | @leaving pre id mine h8 h9 h10 h11 =>
          by_cases hm : m = .notification .exit
          · subst hm
            exact .ended (id := id) (by rw [h8]; simp) h9 h10 (hrep h11) (.inl ⟨rfl, rfl⟩)
          · have : ∃ e, Crew.onRecv .leaving (some m) = .ended (.err e) := by
              match m, hm with
              | .request _, _ => exact ⟨_, rfl⟩
              | .response _, _ => exact ⟨_, rfl⟩
              | .notification n, hm => cases n <;> first | exact absurd rfl hm | exact ⟨_, rfl⟩
            obtain ⟨e, he⟩ := this
            rw [he]
            exact .ended (id := id) (m := m) (by rw [h8]; simp) h9 h10 (hrep h11) (.inr ⟨hm, by simp⟩)
        | _ => cases h3
    | @hire q m r ms h3 h4 h5 h6 =>
      obtain ⟨s1, s2, s3⟩ := own_same (side := side) q.proc .recv
      have hr : Spec.received side (q.proc.does side .recv) = Spec.received side q.proc ++ [m] := by
        simp [Spec.received, does_seen, h4, receivedBy_append, Spec.receivedBy]
      have hp : Spec.replied side (q.proc.does side .recv) = Spec.replied side q.proc := by
        simp [Spec.replied, does_seen, h4, sentBy_append, Spec.sentBy]
      have hne : ∀ r, q.proc.app ≠ .ended r := fun r h => by rw [h] at h3; cases h3
      have hrx : Spec.receivers side 1 (q.proc.does side .recv).seen = 1 := by
        simp [does_seen, h4, receivers_append, Spec.receivers, I.rx hne]
      have htx : Spec.senders side 1 (q.proc.does side .recv).seen = 1 := by
        simp [does_seen, h4, senders_append, Spec.senders, I.tx (.inl hne)]
      have hst := I.stage
      refine ⟨ds ++ [m], sent, inv_step I.mem _ _, fun _ => hrx, fun _ => htx, ?_, hp.trans I.accepted, ?_, ?_, ?_, ?_⟩
      · exact hr.trans (by rw [I.delivered, List.append_assoc])
      · have := merged_more I.merged
        simpa using this
      · intro j hj
        rcases List.mem_append.1 hj with hj | hj
        · exact I.works j hj
        · rw [List.mem_singleton.1 hj]; simpa using h6
      · intro j hj hl
        rcases List.mem_append.1 hj with hj | hj
        · exact ⟨(I.lost j hj hl).1, by rw [s3]; exact (I.lost j hj hl).2⟩
        · rw [List.mem_singleton.1 hj] at hl; exact absurd rfl hl
      · simp only [List.map_append, List.map_cons, List.map_nil]
        show MemStage side _ _ _ _ q.proc.app q.mine
        generalize hx : q.proc.app = x at *
        generalize q.mine = mine at *
        cases hst with
        | idle h9 h10 =>
          have : m = .request r ∧ ∀ id, r ≠ .shutdown id := by
            match m with
            | .request req => cases req <;> cases h5 <;> exact ⟨rfl, by simp⟩
            | .notification n => cases h5
            | .response n => cases h5
          obtain ⟨rfl, h11⟩ := this
          refine .idle ?_ (by rw [reqs_append, h10]; rfl)
          intro id h
          rcases List.mem_append.1 h with h | h
          · exact h9 id h
          · simp only [List.mem_singleton, Message.request.injEq] at h
            exact h11 id h.symm
        | leaving =>
          exfalso
          match m with
          | .request _ => cases h5
          | .response _ => cases h5
          | .notification n => cases n <;> cases h5
        | _ => cases h3
    | @closed q h3 h4 =>
      obtain ⟨s1, s2, s3⟩ := own_same (side := side) q.proc .recv
      have hr : Spec.received side (q.proc.does side .recv) = Spec.received side q.proc := by
        simp [Spec.received, does_seen, h4, receivedBy_append, Spec.receivedBy]
      have hp : Spec.replied side (q.proc.does side .recv) = Spec.replied side q.proc := by
        simp [Spec.replied, does_seen, h4, sentBy_append, Spec.sentBy]
      have hne : ∀ r, q.proc.app ≠ .ended r := fun r h => by rw [h] at h3; cases h3
      have hrx : Spec.receivers side 1 (q.proc.does side .recv).seen = 1 := by
        simp [does_seen, h4, receivers_append, Spec.receivers, I.rx hne]
      have htx : Spec.senders side 1 (q.proc.does side .recv).seen = 1 := by
        simp [does_seen, h4, senders_append, Spec.senders, I.tx (.inl hne)]
      have hlis : ¬ Spec.Listens side q.proc → ¬ Spec.Listens side (q.proc.does side .recv) := by rw [s3]; exact id
      obtain ⟨hall, hnone⟩ := ((outcome_cases q.proc I.mem side .recv).1 rfl).2.2.1 h4
      have hover : MemOver side (q.proc.does side .recv) :=
        own_over hr ⟨by unfold Spec.Talks; omega, hall⟩
      have hst := I.stage
      refine ⟨ds, sent, inv_step I.mem _ _, fun _ => hrx, fun _ => htx, hr.trans I.delivered, hp.trans I.accepted, I.merged,
        I.works, fun j hj hl => ⟨(I.lost j hj hl).1, hlis (I.lost j hj hl).2⟩, ?_⟩
      show MemStage side _ _ _ _ (Crew.onRecv q.proc.app none) q.mine
      generalize hx : q.proc.app = x at *
      generalize q.mine = mine at *
      cases hst with
      | idle h8 h9 => exact .closed h8 h9 hover
      | leaving h8 h9 h10 h11 =>
        refine .cut h8 h9 h10 ?_ (.inl hover)
        rcases h11 with h | ⟨h, h'⟩
        · exact .inl h
        · exact .inr ⟨h, hlis h'⟩
      | _ => cases h3
    | @reply q m h3 h4 =>
      obtain ⟨s1, s2, s3⟩ := own_same (side := side) q.proc (.send m)
      have hr : Spec.received side (q.proc.does side (.send m)) = Spec.received side q.proc := by
        simp [Spec.received, does_seen, h4, receivedBy_append, Spec.receivedBy]
      have hp : Spec.replied side (q.proc.does side (.send m)) = Spec.replied side q.proc ++ [m] := by
        simp [Spec.replied, does_seen, h4, sentBy_append, Spec.sentBy]
      have hne : ∀ r, q.proc.app ≠ .ended r := fun r h => by rw [h] at h3; cases h3
      have hrx : Spec.receivers side 1 (q.proc.does side (.send m)).seen = 1 := by
        simp [does_seen, h4, receivers_append, Spec.receivers, I.rx hne]
      have htx : Spec.senders side 1 (q.proc.does side (.send m)).seen = 1 := by
        simp [does_seen, h4, senders_append, Spec.senders, I.tx (.inl hne)]
      have hlis : ¬ Spec.Listens side q.proc → ¬ Spec.Listens side (q.proc.does side (.send m)) := by rw [s3]; exact id
      have hst := I.stage
      refine ⟨ds, sent ++ [m], inv_step I.mem _ _, fun _ => hrx, fun _ => htx, hr.trans I.delivered, ?_, ?_, I.works,
        fun j hj hl => ⟨(I.lost j hj hl).1, hlis (I.lost j hj hl).2⟩, ?_⟩
      · exact hp.trans (by rw [I.accepted, List.append_assoc])
      · exact .snoc (a := []) I.merged
      · show MemStage side _ _ _ _ (onSent q.proc.app true) (q.mine ++ [m])
        generalize hx : q.proc.app = x at *
        generalize q.mine = mine at *
        cases hst with
        | stopping h7 h8 h9 => cases h3; exact .leaving h7 h8 h9 (.inl rfl)
        | _ => cases h3
    | @noReply q m h3 h4 =>
      obtain ⟨s1, s2, s3⟩ := own_same (side := side) q.proc (.send m)
      have hr : Spec.received side (q.proc.does side (.send m)) = Spec.received side q.proc := by
        simp [Spec.received, does_seen, h4, receivedBy_append, Spec.receivedBy]
      have hp : Spec.replied side (q.proc.does side (.send m)) = Spec.replied side q.proc := by
        simp [Spec.replied, does_seen, h4, sentBy_append, Spec.sentBy]
      have hne : ∀ r, q.proc.app ≠ .ended r := fun r h => by rw [h] at h3; cases h3
      have hrx : Spec.receivers side 1 (q.proc.does side (.send m)).seen = 1 := by
        simp [does_seen, h4, receivers_append, Spec.receivers, I.rx hne]
      have htx : Spec.senders side 1 (q.proc.does side (.send m)).seen = 1 := by
        simp [does_seen, h4, senders_append, Spec.senders, I.tx (.inl hne)]
      have hlis : ¬ Spec.Listens side (q.proc.does side (.send m)) := by
        rw [s3]
        have := ((outcome_cases q.proc I.mem side (.send m)).2.1 m rfl).2.1 h4
        unfold Spec.Listens; omega
      have hst := I.stage
      refine ⟨ds, sent, inv_step I.mem _ _, fun _ => hrx, fun _ => htx, hr.trans I.delivered, hp.trans I.accepted, I.merged,
        I.works, fun j hj hl => ⟨(I.lost j hj hl).1, hlis⟩, ?_⟩
      show MemStage side _ _ _ _ (onSent q.proc.app false) q.mine
      generalize hx : q.proc.app = x at *
      generalize q.mine = mine at *
      cases hst with
      | stopping h7 h8 h9 => exact .leaving h7 h8 h9 (.inr ⟨rfl, hlis⟩)
      | _ => cases h3
    | @send q mine a b r s m l z h4 =>
      obtain ⟨s1, s2, s3⟩ := own_same (side := side) q (.send m)
      have hr : Spec.received side (q.does side (.send m)) = Spec.received side q := by
        simp [Spec.received, does_seen, h4, receivedBy_append, Spec.receivedBy]
      have hp : Spec.replied side (q.does side (.send m)) = Spec.replied side q ++ [m] := by
        simp [Spec.replied, does_seen, h4, sentBy_append, Spec.sentBy]
      have hsend := I.tx (.inr ⟨⟨r, s, m :: l, z⟩, by simp, by simp⟩)
      have hrx : Spec.receivers side 1 (q.does side (.send m)).seen = Spec.receivers side 1 q.seen := by
        simp [does_seen, h4, receivers_append, Spec.receivers]
      have htx : Spec.senders side 1 (q.does side (.send m)).seen = 1 := by
        simpa [does_seen, h4, senders_append, Spec.senders] using hsend
      have hlis : Spec.Listens side q := ((outcome_cases q I.mem side (.send m)).2.1 m rfl).2.2 h4
      have hacc := I.accepted
      simp only at hacc
      refine ⟨ds, sent ++ [m], inv_step I.mem _ _, fun h => hrx.trans (I.rx h), fun _ => htx, hr.trans I.delivered, ?_, ?_,
        ?_, ?_, ?_⟩
      · exact hp.trans (by rw [hacc, List.append_assoc])
      · have := I.merged
        simp only [List.map_append, List.map_cons] at this ⊢
        exact Spec.Merged.snoc (a := mine :: a.map (fun j => j.sent)) (by simpa using this)
      · intro j hj
        rcases mem_mid (x := ⟨r, s, m :: l, z⟩) hj with rfl | hj
        · simpa using I.works ⟨r, s, m :: l, z⟩ (by simp)
        · exact I.works j hj
      · intro j hj hl
        exfalso
        rcases mem_mid (x := ⟨r, s, m :: l, z⟩) hj with rfl | hj
        · exact (I.lost ⟨r, s, m :: l, z⟩ (by simp) hl).2 hlis
        · exact (I.lost j hj hl).2 hlis
      · have := I.stage
        simp only [List.map_append, List.map_cons] at this ⊢
        exact this.mono (own_over hr) (fun h => absurd hlis h) (by simp_all)
    | @unsent q mine a b r s m l z h4 =>
      have hz : z = [] := by
        cases z with
        | nil => rfl
        | cons y z => have := (I.lost ⟨r, s, m :: l, y :: z⟩ (by simp) (by simp)).1; cases this
      subst hz
      obtain ⟨s1, s2, s3⟩ := own_same (side := side) q (.send m)
      have hr : Spec.received side (q.does side (.send m)) = Spec.received side q := by
        simp [Spec.received, does_seen, h4, receivedBy_append, Spec.receivedBy]
      have hp : Spec.replied side (q.does side (.send m)) = Spec.replied side q := by
        simp [Spec.replied, does_seen, h4, sentBy_append, Spec.sentBy]
      have hsend := I.tx (.inr ⟨⟨r, s, m :: l, []⟩, by simp, by simp⟩)
      have hrx : Spec.receivers side 1 (q.does side (.send m)).seen = Spec.receivers side 1 q.seen := by
        simp [does_seen, h4, receivers_append, Spec.receivers]
      have htx : Spec.senders side 1 (q.does side (.send m)).seen = 1 := by
        simpa [does_seen, h4, senders_append, Spec.senders] using hsend
      have hlis : ¬ Spec.Listens side (q.does side (.send m)) := by
        rw [s3]
        have := ((outcome_cases q I.mem side (.send m)).2.1 m rfl).2.1 h4
        unfold Spec.Listens; omega
      refine ⟨ds, sent, inv_step I.mem _ _, fun h => hrx.trans (I.rx h), fun _ => htx, hr.trans I.delivered,
        hp.trans I.accepted, ?_, ?_, ?_, ?_⟩
      · have := I.merged
        simp only [List.map_append, List.map_cons] at this ⊢
        exact this
      · intro j hj
        rcases mem_mid (x := ⟨r, s, m :: l, []⟩) hj with rfl | hj
        · simpa using I.works ⟨r, s, m :: l, []⟩ (by simp)
        · exact I.works j hj
      · intro j hj hl
        rcases mem_mid (x := ⟨r, s, m :: l, []⟩) hj with rfl | hj
        · exact ⟨rfl, hlis⟩
        · exact ⟨(I.lost j hj hl).1, hlis⟩
      · have := I.stage
        simp only [List.map_append, List.map_cons] at this ⊢
        exact this.mono (own_over hr) (fun _ => hlis) (by simp_all)
    | @timeout q h3 =>
      have hst := I.stage
      have hne : ∀ r, q.proc.app ≠ .ended r := fun r h => by rw [h] at h3; cases h3
      refine ⟨ds, sent, I.mem, fun h => I.rx hne, fun _ => I.tx (.inl hne), I.delivered, I.accepted, I.merged,
        I.works, I.lost, ?_⟩
      rw [h3] at hst
      generalize q.mine = mine at *
      cases hst with
      | leaving h8 h9 h10 h11 => exact .cut h8 h9 h10 h11 (.inr (by simp))
    | @dropRx q h3 h4 =>
      obtain ⟨s1, s2, s3⟩ := own_same (side := side) q.proc .dropReceiver
      have hr : Spec.received side (q.proc.does side .dropReceiver) = Spec.received side q.proc := by
        simp [Spec.received, does_seen, h4, receivedBy_append, Spec.receivedBy]
      have hp : Spec.replied side (q.proc.does side .dropReceiver) = Spec.replied side q.proc := by
        simp [Spec.replied, does_seen, h4, sentBy_append, Spec.sentBy]
      have htx : Spec.senders side 1 (q.proc.does side .dropReceiver).seen = Spec.senders side 1 q.proc.seen := by
        simp [does_seen, h4, senders_append, Spec.senders]
      have hlis : ¬ Spec.Listens side q.proc → ¬ Spec.Listens side (q.proc.does side .dropReceiver) := by rw [s3]; exact id
      refine ⟨ds, sent, inv_step I.mem _ _, ?_, fun h => htx.trans (I.tx h), hr.trans I.delivered, hp.trans I.accepted,
        I.merged, I.works, fun j hj hl => ⟨(I.lost j hj hl).1, hlis (I.lost j hj hl).2⟩,
        I.stage.mono (own_over hr) hlis (by simp_all)⟩
      intro h
      obtain ⟨r, h3⟩ := h3
      exact absurd h3 (h r)
    | @dropTx q h3 h5 h4 =>
      obtain ⟨s1, s2, s3⟩ := own_same (side := side) q.proc .dropSender
      have hr : Spec.received side (q.proc.does side .dropSender) = Spec.received side q.proc := by
        simp [Spec.received, does_seen, h4, receivedBy_append, Spec.receivedBy]
      have hp : Spec.replied side (q.proc.does side .dropSender) = Spec.replied side q.proc := by
        simp [Spec.replied, does_seen, h4, sentBy_append, Spec.sentBy]
      have hrx : Spec.receivers side 1 (q.proc.does side .dropSender).seen = Spec.receivers side 1 q.proc.seen := by
        simp [does_seen, h4, receivers_append, Spec.receivers]
      have hlis : ¬ Spec.Listens side q.proc → ¬ Spec.Listens side (q.proc.does side .dropSender) := by rw [s3]; exact id
      refine ⟨ds, sent, inv_step I.mem _ _, fun h => hrx.trans (I.rx h), ?_, hr.trans I.delivered, hp.trans I.accepted,
        I.merged, I.works, fun j hj hl => ⟨(I.lost j hj hl).1, hlis (I.lost j hj hl).2⟩,
        I.stage.mono (own_over hr) hlis (by simp_all)⟩
      rintro (h | ⟨j, hj, h⟩)
      · obtain ⟨r, h3⟩ := h3
        exact absurd h3 (h r)
      · exact absurd (h5 j hj) h

variable {p0 : MemSession.Proc} {as0 : List MemSession.Act} {p : MemCrew.State} {as : List MemSession.Act}

theorem memStage_split {reqs : List Request} {ds : List Message} {q : MemSession.Proc} {a : App}
    {mine : List Message} (h : MemStage side as q reqs ds a mine) :
    ∃ pre post, ds = pre ++ post ∧ Spec.NoShutdown pre ∧ reqs = Spec.requests pre ∧
      (post = [] ∧ mine = [] ∨ ∃ id tail, post = .request (.shutdown id) :: tail ∧ tail.length ≤ 1 ∧
        (mine = [] ∨ mine = [Spec.goodbye id])) := by
  have hr : ∀ {id mine}, MemReplied side q id mine → mine = [] ∨ mine = [Spec.goodbye id] := by
    rintro id mine (h | ⟨h, _⟩)
    · exact .inr h
    · exact .inl h
  cases h with
  | idle h5 h6 => exact ⟨ds, [], by simp, h5, h6, .inl ⟨rfl, rfl⟩⟩
  | closed h5 h6 h7 => exact ⟨ds, [], by simp, h5, h6, .inl ⟨rfl, rfl⟩⟩
  | stopping h5 h6 h7 => exact ⟨_, _, h5, h6, h7, .inr ⟨_, [], rfl, by simp, .inl rfl⟩⟩
  | leaving h5 h6 h7 h8 => exact ⟨_, _, h5, h6, h7, .inr ⟨_, [], rfl, by simp, hr h8⟩⟩
  | ended h5 h6 h7 h8 h9 => exact ⟨_, _, h5, h6, h7, .inr ⟨_, [_], rfl, by simp, hr h8⟩⟩
  | cut h5 h6 h7 h8 h9 => exact ⟨_, _, h5, h6, h7, .inr ⟨_, [], rfl, by simp, hr h8⟩⟩

/-- C138: whatever the order in which the threads and the tester take their steps: what has been received is a beginning
of what the tester has sent; there is one thread for each request received before a request to shut down; each thread has
sent a beginning of what it has to send, in its order; what has been sent on the connection is that, mixed in some way,
with at most one more message, the answer to shutdown; after a request to shut down at most one message is received. -/
theorem C138_sent (h0 : MemSession.Steps side process {} as0 p0) (hidle : p0.app = .idle)
    (h : MemCrew.Steps side work { proc := p0 } as p) :
    Spec.received side p.proc <+: Spec.given side p.proc ∧
    ∃ (pre post sent mine : List Message) (l : List (Request × List Message × List Message)),
      Spec.received side p.proc = Spec.received side p0 ++ (pre ++ post) ∧
      Spec.replied side p.proc = Spec.replied side p0 ++ sent ∧
      Spec.NoShutdown pre ∧ l.map (·.1) = Spec.requests pre ∧ (∀ x ∈ l, work x.1 (x.2.1 ++ x.2.2)) ∧
      Spec.Merged (mine :: l.map (·.2.1)) sent ∧
      (post = [] ∧ mine = [] ∨ ∃ id tail, post = .request (.shutdown id) :: tail ∧ tail.length ≤ 1 ∧
        (mine = [] ∨ mine = [Spec.goodbye id])) := by
  obtain ⟨ds, sent, I⟩ := memCrewInv h0 hidle h
  obtain ⟨pre, post, h1, h2, h3, h4⟩ := memStage_split I.stage
  refine ⟨received_given I.mem, pre, post, sent, p.mine, p.jobs.map fun j => (j.req, j.sent, j.left ++ j.lost),
    h1 ▸ I.delivered, I.accepted, h2, ?_, ?_, ?_, h4⟩
  · rw [← h3, List.map_map]; rfl
  · intro x hx
    obtain ⟨j, hj, rfl⟩ := List.mem_map.1 hx
    exact I.works j hj
  · have := I.merged
    rw [List.map_map]
    exact this

/-- C138: the main thread ends well only if it has received shutdown and then exit, or if the tester can send nothing more,
all it has sent has been received, and no request to shut down was among it.  So exit alone does not end the loop here (on a
real connection it does: C121). -/
theorem C138_ok (h0 : MemSession.Steps side process {} as0 p0) (hidle : p0.app = .idle)
    (h : MemCrew.Steps side work { proc := p0 } as p) (hm : p.proc.app = .ended (.ok ())) :
    ∃ ds, Spec.received side p.proc = Spec.received side p0 ++ ds ∧
      ((∃ pre id, ds = pre ++ [.request (.shutdown id), .notification .exit] ∧ Spec.NoShutdown pre) ∨
       (Spec.NoShutdown ds ∧ ¬ Spec.Talks side p.proc ∧ Spec.received side p.proc = Spec.given side p.proc)) := by
  obtain ⟨ds, sent, I⟩ := memCrewInv h0 hidle h
  refine ⟨ds, I.delivered, ?_⟩
  have hst := I.stage
  rw [hm] at hst
  generalize p.mine = mine at *
  cases hst with
  | closed h1 _ h2 => exact .inr ⟨h1, h2⟩
  | ended h1 h2 _ _ h3 =>
    rcases h3 with ⟨rfl, _⟩ | ⟨_, h3⟩
    · exact .inl ⟨_, _, h1, h2⟩
    · exact absurd rfl h3

/-- What may become of a send. -/
theorem send_outcome {q : MemSession.Proc} (h : Inv q.mem q.seen) (hs : 0 < Spec.senders side 1 q.seen) (m : Message) :
    (q.outcome side (.send m) = .sent m ∧ Spec.Listens side q) ∨
    (q.outcome side (.send m) = .sendFailed m ∧ ¬ Spec.Listens side q) := by
  obtain ⟨o1, o2, o3⟩ := (outcome_cases q h side (.send m)).2.1 m rfl
  have h1 := o1 hs
  obtain ⟨y, _, _, h6⟩ := chan_from h side
  have h6 : q.outcome side (.send m) = (Chan.send y m).2 := h6 (.send m) (fun _ => rfl)
  have : q.outcome side (.send m) = .sent m ∨ q.outcome side (.send m) = .sendFailed m := by
    rw [h6] at h1 ⊢
    unfold Chan.send at *
    split at h1
    · simp at h1
    · rename_i h7
      rw [if_neg h7]
      split <;> simp
  rcases this with h2 | h2
  · exact .inl ⟨h2, o3 h2⟩
  · exact .inr ⟨h2, by unfold Spec.Listens; rw [o2 h2]; simp⟩

/-- C138: no thread started for a request ever waits for a send: it succeeds at once if the tester still listens, and fails
at once if it does not. -/
theorem C138_never_waits (h0 : MemSession.Steps side process {} as0 p0) (hidle : p0.app = .idle)
    (h : MemCrew.Steps side work { proc := p0 } as p) {a b : List Crew.Job} {r : Request} {s l : List Message} {m : Message}
    {z : List Message} (hj : p.jobs = a ++ ⟨r, s, m :: l, z⟩ :: b) :
    (Spec.Listens side p.proc ∧
      ∃ q, MemCrew.Step side work p .main ⟨q, p.mine, a ++ ⟨r, s ++ [m], l, z⟩ :: b⟩ ∧
        Spec.replied side q = Spec.replied side p.proc ++ [m]) ∨
    (¬ Spec.Listens side p.proc ∧
      ∃ q, MemCrew.Step side work p .main ⟨q, p.mine, a ++ ⟨r, s, [], m :: l⟩ :: b⟩ ∧
        Spec.replied side q = Spec.replied side p.proc) := by
  obtain ⟨ds, sent, I⟩ := memCrewInv h0 hidle h
  have hs := I.tx (.inr ⟨⟨r, s, m :: l, z⟩, by simp [hj], by simp⟩)
  have hp : p = ⟨p.proc, p.mine, a ++ ⟨r, s, m :: l, z⟩ :: b⟩ := by rw [← hj]
  rcases send_outcome (side := side) I.mem (by omega) m with ⟨h1, h2⟩ | ⟨h1, h2⟩
  · refine .inl ⟨h2, _, by rw [hp]; exact .send h1, ?_⟩
    simp [Spec.replied, does_seen, h1, sentBy_append, Spec.sentBy]
  · refine .inr ⟨h2, _, by rw [hp]; exact .unsent h1, ?_⟩
    simp [Spec.replied, does_seen, h1, sentBy_append, Spec.sentBy]

/-- C138: nor does the main thread wait when it answers a request to shut down, and it goes on to wait for exit whether or
not the answer could be sent. -/
theorem C138_reply (h0 : MemSession.Steps side process {} as0 p0) (hidle : p0.app = .idle)
    (h : MemCrew.Steps side work { proc := p0 } as p) {sid : RequestId} (hs : p.proc.app = .stopping sid) :
    ∃ q, MemCrew.Step side work p .main q ∧ q.proc.app = .leaving ∧ q.jobs = p.jobs ∧
      (Spec.Listens side p.proc → Spec.replied side q.proc = Spec.replied side p.proc ++ [Spec.goodbye sid]) ∧
      (¬ Spec.Listens side p.proc → Spec.replied side q.proc = Spec.replied side p.proc) := by
  obtain ⟨ds, sent, I⟩ := memCrewInv h0 hidle h
  have ht := I.tx (.inl (by simp [hs]))
  have hm : toSend p.proc.app = some (Spec.goodbye sid) := by rw [hs]; rfl
  rcases send_outcome (side := side) I.mem (by omega) (Spec.goodbye sid) with ⟨h1, h2⟩ | ⟨h1, h2⟩
  · refine ⟨_, .reply hm h1, by simp only; rw [hs]; rfl, rfl, fun _ => ?_, fun h => absurd h2 h⟩
    simp [Spec.replied, does_seen, h1, sentBy_append, Spec.sentBy]
  · refine ⟨_, .noReply hm h1, by simp only; rw [hs]; rfl, rfl, fun h => absurd h h2, fun _ => ?_⟩
    simp [Spec.replied, does_seen, h1, sentBy_append, Spec.sentBy]

/-! ### At rest -/

theorem memCrew_rest {ds sent : List Message} (hi : MemCrewInv side work p0 as p ds sent) (hwk : ∀ r, ∃ ms, work r ms)
    (hq : MemCrew.Quiet side work p) :
    toSend p.proc.app = none ∧ (∀ j ∈ p.jobs, j.left = []) ∧
    (p.proc.app.receives = true → Spec.Talks side p.proc ∧ Spec.received side p.proc = Spec.given side p.proc) := by
  have no : ∀ {a q}, MemCrew.Step side work p a q → a ≠ .tester → a ≠ .timeout → False := by
    intro a q h1 h2 h3
    rcases hq _ _ h1 with h | h
    · exact h2 h
    · exact h3 h
  refine ⟨?_, ?_, ?_⟩
  · cases hs : toSend p.proc.app with
    | none => rfl
    | some m =>
      exfalso
      have ht := hi.tx (.inl fun r h => by rw [h] at hs; cases hs)
      rcases send_outcome (side := side) hi.mem (by omega) m with ⟨h1, _⟩ | ⟨h1, _⟩
      · exact no (.reply hs h1) (by simp) (by simp)
      · exact no (.noReply hs h1) (by simp) (by simp)
  · intro j hj
    obtain ⟨r, s, left, z⟩ := j
    cases left with
    | nil => rfl
    | cons m l =>
      exfalso
      have ht := hi.tx (.inr ⟨_, hj, by simp⟩)
      obtain ⟨a, b, hab⟩ := List.append_of_mem hj
      have hp : p = ⟨p.proc, p.mine, a ++ ⟨r, s, m :: l, z⟩ :: b⟩ := by rw [← hab]
      rw [hp] at no
      rcases send_outcome (side := side) hi.mem (by omega) m with ⟨h1, _⟩ | ⟨h1, _⟩
      · exact no (.send h1) (by simp) (by simp)
      · exact no (.unsent h1) (by simp) (by simp)
  · intro hrec
    have hr := hi.rx fun r h => by rw [h] at hrec; cases hrec
    rcases recv_outcome (side := side) hi.mem (by omega) with ⟨m, ho⟩ | ho | ho
    · exfalso
      by_cases h1 : ∃ r, Crew.onRecv p.proc.app (some m) = .answering r
      · obtain ⟨r, h1⟩ := h1
        obtain ⟨ms, h2⟩ := hwk r
        exact no (.hire hrec ho h1 h2) (by simp) (by simp)
      · exact no (.recv hrec ho (fun r h => h1 ⟨r, h⟩)) (by simp) (by simp)
    · exact (no (.closed hrec ho) (by simp) (by simp)).elim
    · obtain ⟨h4, h5⟩ := ((outcome_cases p.proc hi.mem side .recv).1 rfl).2.2.2 ho
      exact ⟨h5, h4⟩

/-- At rest, and if the tester still listens, every thread has sent all it has to send. -/
theorem memCrew_done {ds sent : List Message} (hi : MemCrewInv side work p0 as p ds sent) (hl : Spec.Listens side p.proc)
    (hj : ∀ j ∈ p.jobs, j.left = []) :
    ∃ l : List (Request × List Message), l.map (·.1) = p.jobs.map (·.req) ∧ (∀ x ∈ l, work x.1 x.2) ∧
      Spec.Merged (p.mine :: l.map (·.2)) sent := by
  refine ⟨p.jobs.map fun j => (j.req, j.sent), by rw [List.map_map]; rfl, ?_, ?_⟩
  · intro x hx
    obtain ⟨j, hm, rfl⟩ := List.mem_map.1 hx
    have := hi.works j hm
    have hz : j.lost = [] := by
      cases h : j.lost with
      | nil => rfl
      | cons y z => exact absurd hl (hi.lost j hm (by simp [h])).2
    simpa [hj j hm, hz] using this
  · have := hi.merged
    rw [List.map_map]
    exact this

/-- C138: when the threads can do nothing but wait, the tester still listens and no request to shut down has been received:
all that the tester has sent has been received; for each request there has been one thread, and it has sent all it had to
send; the main thread waits for more, or the tester can send nothing more and the main thread has ended well. -/
theorem C138_rest (h0 : MemSession.Steps side process {} as0 p0) (hidle : p0.app = .idle) (hwk : ∀ r, ∃ ms, work r ms)
    (h : MemCrew.Steps side work { proc := p0 } as p) (hl : Spec.Listens side p.proc) (hq : MemCrew.Quiet side work p)
    (hs : Spec.NoShutdown ((Spec.received side p.proc).drop (Spec.received side p0).length)) :
    ∃ (ds sent : List Message) (l : List (Request × List Message)),
      Spec.given side p.proc = Spec.received side p0 ++ ds ∧ Spec.received side p.proc = Spec.given side p.proc ∧
      Spec.replied side p.proc = Spec.replied side p0 ++ sent ∧ l.map (·.1) = Spec.requests ds ∧
      (∀ x ∈ l, work x.1 x.2) ∧ Spec.Merged (l.map (·.2)) sent ∧
      ((p.proc.app = .idle ∧ Spec.Talks side p.proc) ∨ (p.proc.app = .ended (.ok ()) ∧ ¬ Spec.Talks side p.proc)) := by
  obtain ⟨ds, sent, I⟩ := memCrewInv h0 hidle h
  obtain ⟨h1, h2, h3⟩ := memCrew_rest I hwk hq
  obtain ⟨l, h4, h5, h6⟩ := memCrew_done I hl h2
  rw [I.delivered, List.drop_left' rfl] at hs
  have key : p.jobs.map (·.req) = Spec.requests ds ∧ p.mine = [] ∧
      (p.proc.app = .idle ∨ p.proc.app = .ended (.ok ()) ∧ MemOver side p.proc) := by
    have no : ∀ {pre id tail}, ds = pre ++ .request (.shutdown id) :: tail → False :=
      fun h => hs _ (by rw [h]; exact List.mem_append_right _ (List.mem_cons_self ..))
    have hst := I.stage
    generalize p.proc.app = x at hst
    generalize p.mine = mine at hst
    cases hst with
    | idle _ h => exact ⟨h, rfl, .inl rfl⟩
    | closed _ h h' => exact ⟨h, rfl, .inr ⟨rfl, h'⟩⟩
    | stopping h => exact (no h).elim
    | leaving h => exact (no h).elim
    | ended h => exact (no h).elim
    | cut h => exact (no h).elim
  obtain ⟨h9, h10, h11⟩ := key
  rw [h10] at h6
  have hall : Spec.received side p.proc = Spec.given side p.proc := by
    rcases h11 with h11 | ⟨_, h12⟩
    · exact (h3 (by rw [h11]; rfl)).2
    · exact h12.2
  refine ⟨ds, sent, l, by rw [← hall, I.delivered], hall, I.accepted, h4.trans h9, h5, merged_tail h6, ?_⟩
  rcases h11 with h11 | ⟨h11, h12⟩
  · exact .inl ⟨h11, (h3 (by rw [h11]; rfl)).1⟩
  · exact .inr ⟨h11, h12.1⟩

/-- Two ways to cut a list at its first request to shut down. -/
theorem cut_once {a b x y : List Message} {i j : RequestId} (ha : Spec.NoShutdown a) (hb : Spec.NoShutdown b)
    (h : a ++ .request (.shutdown i) :: x = b ++ .request (.shutdown j) :: y) : a = b ∧ i = j ∧ x = y := by
  rcases List.append_eq_append_iff.1 h with ⟨c, h1, h2⟩ | ⟨c, h1, h2⟩
  · cases c with
    | nil =>
      simp only [List.nil_append, List.cons.injEq, Message.request.injEq, Request.shutdown.injEq] at h2
      exact ⟨by simp [h1], h2.1, h2.2⟩
    | cons m c =>
      simp only [List.cons_append, List.cons.injEq] at h2
      exact absurd (by rw [h1, ← h2.1]; simp) (hb i)
  · cases c with
    | nil =>
      simp only [List.nil_append, List.cons.injEq, Message.request.injEq, Request.shutdown.injEq] at h2
      exact ⟨by simp [h1], h2.1.symm, h2.2.symm⟩
    | cons m c =>
      simp only [List.cons_append, List.cons.injEq] at h2
      exact absurd (by rw [h1, ← h2.1]; simp) (ha j)

/-- C138: the tester sends some messages, which may contain exit, then shutdown, then exit, and maybe more.  When the threads
can do nothing but wait, the tester still listens and exit was not late: everything up to that exit has been received and
nothing after it; each request has had its thread, which has sent all it had to send, be it before or after the answer to
shutdown or even after exit; that and the answer to shutdown is all that has been sent; the main thread has ended well. -/
theorem C138_shutdown (h0 : MemSession.Steps side process {} as0 p0) (hidle : p0.app = .idle) (hwk : ∀ r, ∃ ms, work r ms)
    (h : MemCrew.Steps side work { proc := p0 } as p) (hl : Spec.Listens side p.proc) (hq : MemCrew.Quiet side work p)
    (hto : MemSession.Act.timeout ∉ as) {pre rest : List Message} {sid : RequestId}
    (hg : Spec.given side p.proc =
      Spec.received side p0 ++ pre ++ [.request (.shutdown sid), .notification .exit] ++ rest) (hs : Spec.NoShutdown pre) :
    ∃ (sent : List Message) (l : List (Request × List Message)),
      Spec.received side p.proc = Spec.received side p0 ++ pre ++ [.request (.shutdown sid), .notification .exit] ∧
      Spec.replied side p.proc = Spec.replied side p0 ++ sent ∧ l.map (·.1) = Spec.requests pre ∧ (∀ x ∈ l, work x.1 x.2) ∧
      Spec.Merged ([Spec.goodbye sid] :: l.map (·.2)) sent ∧ p.proc.app = .ended (.ok ()) := by
  obtain ⟨ds, sent, I⟩ := memCrewInv h0 hidle h
  obtain ⟨h1, h2, h3⟩ := memCrew_rest I hwk hq
  obtain ⟨l, h4, h5, h6⟩ := memCrew_done I hl h2
  have hpre := received_given (side := side) I.mem
  rw [I.delivered, hg, List.append_assoc, List.append_assoc, List.prefix_append_right_inj] at hpre
  have hwhole : Spec.received side p.proc = Spec.given side p.proc →
      ds = pre ++ ([.request (.shutdown sid), .notification .exit] ++ rest) := by
    rw [I.delivered, hg, List.append_assoc, List.append_assoc, List.append_cancel_left_eq]
    exact id
  have hno : Spec.NoShutdown ds → Spec.received side p.proc = Spec.given side p.proc → False := fun h h' =>
    h sid (by rw [hwhole h']; simp)
  have hlast : ∀ {a : List Message} {id : RequestId}, Spec.NoShutdown a → ds = a ++ [.request (.shutdown id)] →
      Spec.received side p.proc = Spec.given side p.proc → False := by
    intro a id h9 h7 h8
    have := hwhole h8
    rw [h7] at this
    have := (cut_once h9 hs this).2.2
    cases this
  have hrep : ∀ {id mine}, MemReplied side p.proc id mine → mine = [Spec.goodbye id] := by
    rintro id mine (h | ⟨_, h⟩)
    · exact h
    · exact absurd hl h
  have key : ds = pre ++ [.request (.shutdown sid), .notification .exit] ∧ p.jobs.map (·.req) = Spec.requests pre ∧
      p.mine = [Spec.goodbye sid] ∧ p.proc.app = .ended (.ok ()) := by
    have hst := I.stage
    generalize p.proc.app = x at hst h1 h3
    generalize p.mine = mine at hst
    cases hst with
    | idle h7 _ => exact (hno h7 (h3 rfl).2).elim
    | closed h7 _ h8 => exact (hno h7 h8.2).elim
    | stopping => cases h1
    | leaving h7 h8 => exact (hlast h8 h7 (h3 rfl).2).elim
    | @ended pre' id mine m r h7 h8 h9 h10 h11 =>
      obtain ⟨t, ht⟩ := hpre
      rw [h7, List.append_assoc] at ht
      obtain ⟨rfl, rfl, h12⟩ := cut_once h8 hs ht
      have h13 : m = .notification .exit := (List.cons.inj h12).1
      refine ⟨by rw [h7, h13], h9, hrep h10, ?_⟩
      rcases h11 with ⟨_, h⟩ | ⟨h, _⟩
      · rw [h]
      · exact absurd h13 h
    | cut h7 h8 _ _ h9 => exact (hlast h8 h7 (h9.resolve_right hto).2).elim
  obtain ⟨h7, h8, h9, h10⟩ := key
  exact ⟨sent, l, by rw [I.delivered, h7, List.append_assoc], I.accepted, h4.trans h8, h5, h9 ▸ h6, h10⟩

/-- C138: if the threads answer, each its request and once, then every request has been answered once. -/
theorem C138_once (h0 : MemSession.Steps side process {} as0 p0) (hidle : p0.app = .idle) (hwk : ∀ r, ∃ ms, work r ms)
    (hwo : ∀ r ms, work r ms → Spec.answered ms = [r.id])
    (h : MemCrew.Steps side work { proc := p0 } as p) (hl : Spec.Listens side p.proc) (hq : MemCrew.Quiet side work p)
    (hto : MemSession.Act.timeout ∉ as) {pre rest : List Message} {sid : RequestId}
    (hg : Spec.given side p.proc =
      Spec.received side p0 ++ pre ++ [.request (.shutdown sid), .notification .exit] ++ rest) (hs : Spec.NoShutdown pre) :
    ∃ sent, Spec.replied side p.proc = Spec.replied side p0 ++ sent ∧
      (Spec.answered sent).Perm ((Spec.requests pre).map Request.id ++ [sid]) := by
  obtain ⟨sent, l, _, h2, h3, h4, h5, _⟩ := C138_shutdown h0 hidle hwk h hl hq hto hg hs
  refine ⟨sent, h2, ((merged_perm h5).filterMap _).trans ?_⟩
  have : ∀ l : List (Request × List Message), (∀ x ∈ l, work x.1 x.2) →
      Spec.answered (l.map (·.2)).flatten = (l.map (·.1)).map Request.id := by
    intro l hl
    induction l with
    | nil => rfl
    | cons x l ih =>
      have h6 := hwo _ _ (hl x (by simp))
      have h7 := ih fun y hy => hl y (by simp [hy])
      simp only [Spec.answered] at h6 h7 ⊢
      simp only [List.map_cons, List.flatten_cons, List.filterMap_append, h6, h7, List.singleton_append]
  have h6 := this l h4
  simp only [Spec.answered] at h6
  rw [List.flatten_cons, List.filterMap_append, h6, h3]
  exact List.perm_append_comm

/-! ### Coming to rest -/

/-- What is left to be done, in two parts: by the main thread; by the others. -/
def memCrewWork (side : Side) (p : MemCrew.State) : Nat × Nat :=
  (mwork side p.proc, (p.jobs.map fun j => j.left.length).sum)

theorem mwork_send {q : MemSession.Proc} (hi : q.mem.conn = memory.conn) (m : Message) :
    mwork side (q.does side (.send m)) = mwork side q := by
  obtain ⟨h3, h4, h5⟩ := (does_chans (side := side) hi (.send m)).2 fun _ => rfl
  show 3 * ((q.does side (.send m)).mem.chan (q.mem.conn side).receiver).queue.length + rank q.app +
      ((q.does side (.send m)).mem.chan (q.mem.conn side).sender).senders +
      ((q.does side (.send m)).mem.chan (q.mem.conn side).receiver).receivers = _
  rw [h3, h4, mwork]
  simp only [Op.on, Chan.send]
  repeat' split
  all_goals rfl

theorem memCrewWork_decreases {p q : MemCrew.State} {a : MemSession.Act} (hi : p.proc.mem.conn = memory.conn)
    (h : MemCrew.Step side work p a q) (ha : a ≠ .tester) :
    Prod.Lex (· < ·) (· < ·) (memCrewWork side q) (memCrewWork side p) ∧ q.proc.mem.conn = memory.conn ∧
      Spec.given side q.proc = Spec.given side p.proc ∧ (Spec.Talks side q.proc ↔ Spec.Talks side p.proc) ∧
      (Spec.Listens side q.proc ↔ Spec.Listens side p.proc) := by
  have go : ∀ (q : MemSession.Proc) (op : Op), Spec.given side (q.does side op) = Spec.given side q ∧
      (Spec.Talks side (q.does side op) ↔ Spec.Talks side q) ∧
      (Spec.Listens side (q.does side op) ↔ Spec.Listens side q) := fun q op => by
    obtain ⟨h1, h2, h3⟩ := own_same (side := side) q op
    exact ⟨h1, by rw [h2], by rw [h3]⟩
  cases h with
  | tester => exact absurd rfl ha
  | recv h3 h4 h5 =>
    obtain ⟨h6, h7⟩ := mwork_decreases (process := fun _ => none) hi (.recv h3 h4) (by simp) (by simp)
    exact ⟨.left _ _ h6, h7, go p.proc .recv⟩
  | @hire _ m r ms h3 h4 h5 h6 =>
    obtain ⟨h6, h7⟩ := mwork_decreases (process := fun _ => none) hi (.recv h3 h4) (by simp) (by simp)
    refine ⟨.left _ _ (Nat.lt_of_le_of_lt ?_ h6), h7, go p.proc .recv⟩
    have h8 : rank p.proc.app = 1 := by unfold rank; rw [receives_toSend h3, h3]; rfl
    have h9 : rank (Crew.onRecv p.proc.app (some m)) = 2 := by rw [h5]; rfl
    have h9' : rank (onRecv (fun _ => none) p.proc.app (some m)) = 2 := h9
    simp only [mwork, h9']
    have : rank (p.proc.does side .recv).app = 1 := h8
    omega
  | closed h3 h4 =>
    obtain ⟨h6, h7⟩ := mwork_decreases (process := fun _ => none) hi (.closed h3 h4) (by simp) (by simp)
    exact ⟨.left _ _ h6, h7, go p.proc .recv⟩
  | @reply _ m h3 h4 =>
    obtain ⟨h6, h7⟩ := mwork_decreases (process := fun _ => none) hi (.send h3 h4) (by simp) (by simp)
    exact ⟨.left _ _ h6, h7, go p.proc (.send m)⟩
  | @noReply _ m h3 h4 =>
    obtain ⟨h6, h7⟩ := mwork_decreases (process := fun _ => none) hi (.unsent h3 h4) (by simp) (by simp)
    exact ⟨.left _ _ h6, h7, go p.proc (.send m)⟩
  | @send q mine a b r s m l z h4 =>
    refine ⟨(Prod.lex_def).2 (.inr ⟨mwork_send hi m, ?_⟩), hi, go q (.send m)⟩
    simp [memCrewWork]
  | @unsent q mine a b r s m l z h4 =>
    refine ⟨(Prod.lex_def).2 (.inr ⟨mwork_send hi m, ?_⟩), hi, go q (.send m)⟩
    simp [memCrewWork]
  | timeout h3 =>
    refine ⟨.left _ _ ?_, hi, rfl, .rfl, .rfl⟩
    simp only [mwork, h3]
    show _ + 0 + _ + _ < _ + 1 + _ + _
    omega
  | dropRx h3 h4 =>
    obtain ⟨r, h3⟩ := h3
    obtain ⟨h6, h7⟩ := mwork_decreases (process := fun _ => none) hi (.dropRx h3 h4) (by simp) (by simp)
    exact ⟨.left _ _ h6, h7, go p.proc .dropReceiver⟩
  | dropTx h3 h5 h4 =>
    obtain ⟨r, h3⟩ := h3
    obtain ⟨h6, h7⟩ := mwork_decreases (process := fun _ => none) hi (.dropTx h3 h4) (by simp) (by simp)
    exact ⟨.left _ _ h6, h7, go p.proc .dropSender⟩

theorem memCrew_acc (x : Nat × Nat) : ∀ p : MemCrew.State, memCrewWork side p = x → p.proc.mem.conn = memory.conn →
    Acc (fun q p : MemCrew.State => ∃ a, a ≠ .tester ∧ MemCrew.Step side work p a q) p := by
  refine (Prod.lex ⟨_, Nat.lt_wfRel.wf⟩ ⟨_, Nat.lt_wfRel.wf⟩).wf.induction
    (C := fun x => ∀ p : MemCrew.State, memCrewWork side p = x → p.proc.mem.conn = memory.conn →
      Acc (fun q p : MemCrew.State => ∃ a, a ≠ .tester ∧ MemCrew.Step side work p a q) p) x ?_
  intro x ih p hx hc
  refine .intro _ ?_
  rintro q ⟨a, ha, h⟩
  obtain ⟨h1, h2, _⟩ := memCrewWork_decreases hc h ha
  exact ih _ (hx ▸ h1) q rfl h2

/-- C138: there is no infinite run in which the tester does nothing, however much the threads have to send. -/
theorem C138_terminates (h0 : MemSession.Steps side process {} as0 p0) (hidle : p0.app = .idle)
    (h : MemCrew.Steps side work { proc := p0 } as p) :
    Acc (fun q p : MemCrew.State => ∃ a, a ≠ .tester ∧ MemCrew.Step side work p a q) p := by
  obtain ⟨_, _, I⟩ := memCrewInv h0 hidle h
  exact memCrew_acc _ p rfl I.mem.conn

theorem memCrew_cons {p q r : MemCrew.State} {a : MemSession.Act} {as : List MemSession.Act}
    (h : MemCrew.Step side work p a q) (h' : MemCrew.Steps side work q as r) : MemCrew.Steps side work p (a :: as) r := by
  induction h' with
  | nil => exact .snoc (.nil _) h
  | snoc _ h2 ih => exact .snoc (as := a :: _) ih h2

theorem memCrew_append {p q r : MemCrew.State} {as bs : List MemSession.Act}
    (h : MemCrew.Steps side work p as q) (h' : MemCrew.Steps side work q bs r) : MemCrew.Steps side work p (as ++ bs) r := by
  induction h' with
  | nil => simpa using h
  | snoc _ h2 ih => rw [← List.append_assoc]; exact .snoc ih h2

/-- C138: left alone, the threads come to rest, without waiting for the time limit. -/
theorem C138_settles (h0 : MemSession.Steps side process {} as0 p0) (hidle : p0.app = .idle)
    (h : MemCrew.Steps side work { proc := p0 } as p) :
    ∃ bs q, MemCrew.Steps side work p bs q ∧ MemCrew.Quiet side work q ∧ (∀ a ∈ bs, a ≠ .tester ∧ a ≠ .timeout) ∧
      Spec.given side q.proc = Spec.given side p.proc ∧ (Spec.Talks side q.proc ↔ Spec.Talks side p.proc) ∧
      (Spec.Listens side q.proc ↔ Spec.Listens side p.proc) := by
  have hacc := C138_terminates h0 hidle h
  obtain ⟨_, _, I⟩ := memCrewInv h0 hidle h
  have hc := I.mem.conn
  clear h I
  induction hacc with
  | intro p _ ih =>
    by_cases hq : MemCrew.Quiet side work p
    · exact ⟨[], p, .nil _, hq, by simp, rfl, .rfl, .rfl⟩
    · simp only [MemCrew.Quiet, Classical.not_forall, not_or] at hq
      obtain ⟨a, q, h1, h2, h3⟩ := hq
      obtain ⟨_, h5, h12, h13, h14⟩ := memCrewWork_decreases hc h1 h2
      obtain ⟨bs, r, h6, h7, h8, h9, h10, h11⟩ := ih q ⟨a, h2, h1⟩ h5
      refine ⟨a :: bs, r, memCrew_cons h1 h6, h7, ?_, h9.trans h12, h10.trans h13, h11.trans h14⟩
      intro b hb
      rcases List.mem_cons.1 hb with rfl | hb
      · exact ⟨h2, h3⟩
      · exact h8 b hb

/-- The tester sends these messages one after the other, and the threads do nothing meanwhile. -/
theorem memCrew_told (h0 : MemSession.Steps side process {} as0 p0) (hidle : p0.app = .idle) (ht : Spec.Talks side p0)
    (ms : List Message) : ∃ as p, MemCrew.Steps side work { proc := p0 } as p ∧
      Spec.given side p.proc = Spec.given side p0 ++ ms ∧ Spec.received side p.proc = Spec.received side p0 ∧
      (Spec.Listens side p.proc ↔ Spec.Listens side p0) ∧ Spec.Talks side p.proc ∧ p.proc.app = .idle ∧ p.mine = [] ∧
      p.jobs = [] ∧ MemSession.Act.timeout ∉ as ∧ Spec.replied side p.proc = Spec.replied side p0 := by
  generalize hr : ms.reverse = rs
  induction rs generalizing ms with
  | nil =>
    have : ms = [] := by simpa using hr
    subst this
    exact ⟨[], _, .nil _, by simp, rfl, .rfl, ht, hidle, rfl, rfl, by simp, rfl⟩
  | cons m rs ih =>
    obtain ⟨as, p, h1, h2, h3, h4, h5, h9, h10, h11, h12, h13⟩ := ih rs.reverse (by simp)
    obtain ⟨_, _, I⟩ := memCrewInv h0 hidle h1
    have h6 := I.mem
    have h7 := I.rx (by simp [h9])
    have ho : p.proc.outcome side.other (.send m) = .sent m := by
      obtain ⟨x, hx, _, h8⟩ := chan_from h6 side.other
      have h8 : p.proc.outcome side.other (.send m) = (Chan.send x m).2 := h8 (.send m) (fun _ => rfl)
      rw [other_other] at hx
      rw [h8]
      unfold Chan.send
      have := hx.senders
      rw [if_neg (by unfold Spec.Talks at h5; omega), if_neg (by rw [hx.receivers, h7]; simp)]
    have hms : ms = rs.reverse ++ [m] := by
      rw [← List.reverse_reverse ms, hr]; simp
    obtain ⟨e1, e2, e3, e4, e5, e6⟩ := tester_does (side := side) h6 (.send m)
    refine ⟨_, _, .snoc h1 (.tester p (.send m)), ?_, e1.trans h3, ?_, ?_, h9, h10, h11, by simp [h12], e2.trans h13⟩
    · show Spec.given side (p.proc.does side.other (.send m)) = _
      rw [Spec.given, does_seen, ho, sentBy_append, ← Spec.given, h2, hms]; simp [Spec.sentBy]
    · rw [← h4]
      show Spec.Listens side (p.proc.does side.other (.send m)) ↔ _
      simp [Spec.Listens, does_seen, ho, receivers_append, Spec.receivers]
    · show Spec.Talks side (p.proc.does side.other (.send m))
      simpa [Spec.Talks, does_seen, ho, senders_append, Spec.senders] using h5

/-- C138: whatever the tester sends without waiting for answers, there is a run in which the threads come to rest. -/
theorem C138_exists (h0 : MemSession.Steps side process {} as0 p0) (hidle : p0.app = .idle) (ht : Spec.Talks side p0)
    (hl : Spec.Listens side p0) (ms : List Message) : ∃ as p, MemCrew.Steps side work { proc := p0 } as p ∧
      MemCrew.Quiet side work p ∧ Spec.given side p.proc = Spec.given side p0 ++ ms ∧ Spec.Listens side p.proc ∧
      Spec.Talks side p.proc ∧ MemSession.Act.timeout ∉ as := by
  obtain ⟨as, p, h1, h2, h3, h4, h5, _, _, _, h6, _⟩ := memCrew_told (work := work) h0 hidle ht ms
  obtain ⟨bs, q, g1, g2, g3, g4, g5, g6⟩ := C138_settles h0 hidle h1
  refine ⟨_, q, memCrew_append h1 g1, g2, g4.trans h2, g6.2 (h4.2 hl), g5.2 h5, ?_⟩
  intro h
  rcases List.mem_append.1 h with h | h
  · exact h6 h
  · exact (g3 _ h).2 rfl

/-! ### After exit -/

/-- What is received next. -/
theorem recv_next {q : MemSession.Proc} (h : Inv q.mem q.seen) (hr : 0 < Spec.receivers side 1 q.seen) {m : Message}
    {rest : List Message} (hg : Spec.given side q = Spec.received side q ++ m :: rest) :
    q.outcome side .recv = .received m := by
  obtain ⟨_, c2, c3, c4⟩ := (outcome_cases q h side .recv).1 rfl
  have hne : Spec.received side q ≠ Spec.given side q := by rw [hg]; simp
  rcases recv_outcome (side := side) h hr with ⟨m', ho⟩ | ho | ho
  · have := c2 m' ho
    change Spec.received side q ++ [m'] <+: Spec.given side q at this
    rw [hg, List.prefix_append_right_inj] at this
    rw [ho]
    simpa using this
  · exact absurd (c3 ho).1 hne
  · exact absurd (c4 ho).1 hne

/-- A thread can send all it has to send. -/
theorem memCrew_sends (h0 : MemSession.Steps side process {} as0 p0) (hidle : p0.app = .idle) {r : Request}
    (ms : List Message) : ∀ (p : MemCrew.State) (as : List MemSession.Act) (s : List Message),
    MemCrew.Steps side work { proc := p0 } as p → Spec.Listens side p.proc → p.jobs = [⟨r, s, ms, []⟩] →
    ∃ bs q, MemCrew.Steps side work p bs q ∧ Spec.replied side q.proc = Spec.replied side p.proc ++ ms ∧
      q.jobs = [⟨r, s ++ ms, [], []⟩] ∧ ∀ a ∈ bs, a = .main := by
  induction ms with
  | nil => intro p as s h hl hj; exact ⟨[], p, .nil _, by simp, by simpa using hj, by simp⟩
  | cons m ms ih =>
    intro p as s h hl hj
    rcases C138_never_waits h0 hidle h (a := []) (b := []) hj with ⟨_, q, h1, h2⟩ | ⟨h1, _⟩
    · have hl' : Spec.Listens side q := by
        obtain ⟨_, _, I⟩ := memCrewInv h0 hidle h
        exact (memCrewWork_decreases I.mem.conn h1 (by simp)).2.2.2.2.2 hl
      obtain ⟨bs, q', g1, g2, g3, g4⟩ := ih _ _ (s ++ [m]) (.snoc h h1) hl' rfl
      refine ⟨.main :: bs, q', memCrew_cons h1 g1, ?_, by simpa using g3, ?_⟩
      · rw [g2]; simp only; rw [h2]; simp
      · intro a ha
        rcases List.mem_cons.1 ha with h | h
        · exact h
        · exact g4 a h
    · exact absurd hl h1

/-- A request is given to a thread, and the main thread has received a request to shut down. -/
theorem memCrew_asked (h0 : MemSession.Steps side process {} as0 p0) (hidle : p0.app = .idle) (ht : Spec.Talks side p0)
    (hl : Spec.Listens side p0) (hall : Spec.received side p0 = Spec.given side p0) {r : Request} {ms : List Message}
    (sid : RequestId) (tail : List Message) (hn : ∀ id, r ≠ .shutdown id) (hwk : work r ms) :
    ∃ as p, MemCrew.Steps side work { proc := p0 } as p ∧ p.proc.app = .stopping sid ∧ p.jobs = [⟨r, [], ms, []⟩] ∧
      Spec.given side p.proc = Spec.given side p0 ++ .request r :: .request (.shutdown sid) :: tail ∧
      Spec.received side p.proc = Spec.received side p0 ++ [.request r, .request (.shutdown sid)] ∧
      Spec.replied side p.proc = Spec.replied side p0 ∧ Spec.Listens side p.proc := by
  obtain ⟨as1, p1, a1, a2, a3, a4, a5, a6, a7, a8, _, a9⟩ := memCrew_told (work := work) h0 hidle ht
    (.request r :: .request (.shutdown sid) :: tail)
  -- what a step of the threads leaves
  have keep : ∀ {as p a q}, MemCrew.Steps side work { proc := p0 } as p → MemCrew.Step side work p a q → a ≠ .tester →
      Spec.given side q.proc = Spec.given side p.proc ∧ (Spec.Listens side q.proc ↔ Spec.Listens side p.proc) := by
    intro as p a q h1 h2 h3
    obtain ⟨_, _, I⟩ := memCrewInv h0 hidle h1
    obtain ⟨_, _, h4, _, h5⟩ := memCrewWork_decreases I.mem.conn h2 h3
    exact ⟨h4, h5⟩
  have recvd : ∀ (q : MemSession.Proc) (m : Message), q.outcome side .recv = .received m →
      Spec.received side (q.does side .recv) = Spec.received side q ++ [m] ∧
      Spec.replied side (q.does side .recv) = Spec.replied side q := by
    intro q m h4
    exact ⟨by simp [Spec.received, does_seen, h4, receivedBy_append, Spec.receivedBy],
      by simp [Spec.replied, does_seen, h4, sentBy_append, Spec.sentBy]⟩
  have next : ∀ {as p} (_ : MemCrew.Steps side work { proc := p0 } as p) {m rest}, p.proc.app.receives = true →
      Spec.given side p.proc = Spec.received side p.proc ++ m :: rest → p.proc.outcome side .recv = .received m := by
    intro as p h m rest h1 h2
    obtain ⟨_, _, I⟩ := memCrewInv h0 hidle h
    have := I.rx fun r h => by rw [h] at h1; cases h1
    exact recv_next I.mem (by omega) h2
  -- the request is given to a thread
  have o1 := next a1 (by rw [a6]; rfl) (by rw [a2, a3, hall])
  have e1 : Crew.onRecv p1.proc.app (some (.request r)) = .answering r := by
    rw [a6]; cases r <;> first | rfl | exact absurd rfl (hn _)
  have s1 := MemCrew.Step.hire (side := side) (work := work) (p := p1) (by rw [a6]; rfl) o1 e1 hwk
  have r1 := MemCrew.Steps.snoc a1 s1
  have k1 := keep a1 s1 (by simp)
  have b1 := recvd _ _ o1
  generalize hp2 : ({ p1 with proc := p1.proc.does side .recv, jobs := p1.jobs ++ [{ req := r, left := ms }] } :
    MemCrew.State) = p2 at s1 r1 k1
  have f2 : p2.proc.app = .idle ∧ p2.mine = [] ∧ p2.jobs = [⟨r, [], ms, []⟩] ∧
      Spec.received side p2.proc = Spec.received side p0 ++ [.request r] ∧
      Spec.replied side p2.proc = Spec.replied side p0 := by
    subst hp2
    exact ⟨a6, a7, by simp [a8], b1.1.trans (by rw [a3]), b1.2.trans a9⟩
  obtain ⟨c1, c2, c3, c4, c5⟩ := f2
  have g2 : Spec.given side p2.proc =
      Spec.received side p2.proc ++ .request (.shutdown sid) :: tail := by
    rw [k1.1, a2, c4, hall]; simp
  -- the request to shut down
  have o2 := next r1 (by rw [c1]; rfl) g2
  have s2 := MemCrew.Step.recv (side := side) (work := work) (p := p2) (by rw [c1]; rfl) o2 (by
    intro r'; rw [c1]; exact fun h => by cases h)
  have r2 := MemCrew.Steps.snoc r1 s2
  have k2 := keep r1 s2 (by simp)
  have b2 := recvd _ _ o2
  generalize hp3 : ({ p2 with proc := { p2.proc.does side .recv with
    app := Crew.onRecv p2.proc.app (some (.request (.shutdown sid))) } } : MemCrew.State) = p3 at s2 r2 k2
  have f3 : p3.proc.app = .stopping sid ∧ p3.mine = [] ∧ p3.jobs = [⟨r, [], ms, []⟩] ∧
      Spec.received side p3.proc = Spec.received side p0 ++ [.request r, .request (.shutdown sid)] ∧
      Spec.replied side p3.proc = Spec.replied side p0 := by
    subst hp3
    refine ⟨by simp only; rw [c1]; rfl, c2, c3, b2.1.trans (by rw [c4]; simp), b2.2.trans c5⟩
  obtain ⟨d1, d2, d3, d4, d5⟩ := f3
  exact ⟨_, p3, r2, d1, d3, by rw [k2.1, k1.1, a2], d4, d5, k2.2.2 (k1.2.2 (a4.2 hl))⟩

/-- The tester can stop listening. -/
theorem memCrew_deaf (h0 : MemSession.Steps side process {} as0 p0) (hidle : p0.app = .idle) :
    ∀ (n : Nat) (p : MemCrew.State) (as : List MemSession.Act), MemCrew.Steps side work { proc := p0 } as p →
    Spec.receivers side.other 1 p.proc.seen = n →
    ∃ bs q, MemCrew.Steps side work { proc := p0 } bs q ∧ ¬ Spec.Listens side q.proc ∧ q.proc.app = p.proc.app ∧
      q.jobs = p.jobs ∧ Spec.replied side q.proc = Spec.replied side p.proc := by
  intro n
  induction n with
  | zero => intro p as h hn; exact ⟨as, p, h, by unfold Spec.Listens; omega, rfl, rfl, rfl⟩
  | succ n ih =>
    intro p as h hn
    obtain ⟨_, _, I⟩ := memCrewInv h0 hidle h
    obtain ⟨x, hx, h8, _⟩ := chan_from I.mem side
    have h8 : p.proc.outcome side.other .dropReceiver = (Chan.dropReceiver x).2 := h8 .dropReceiver (fun _ => rfl)
    have ho : p.proc.outcome side.other .dropReceiver = .droppedReceiver := by
      rw [h8]
      unfold Chan.dropReceiver
      rw [if_neg (by rw [hx.receivers, hn]; omega)]
    obtain ⟨_, e2, _⟩ := tester_does (side := side) I.mem .dropReceiver
    obtain ⟨bs, q, g1, g2, g3, g4, g5⟩ := ih _ _ (.snoc h (.tester p .dropReceiver)) (by
      simp [does_seen, ho, receivers_append, Spec.receivers, hn])
    exact ⟨bs, q, g1, g2, g3, g4, g5.trans e2⟩

/-- C138: what a thread has to send may all be sent after the answer to shutdown, and after the main thread has received
exit and ended. -/
theorem C138_late (h0 : MemSession.Steps side process {} as0 p0) (hidle : p0.app = .idle) (ht : Spec.Talks side p0)
    (hl : Spec.Listens side p0) (hall : Spec.received side p0 = Spec.given side p0) {r : Request} {ms : List Message}
    (sid : RequestId) (hn : ∀ id, r ≠ .shutdown id) (hwk : work r ms) :
    ∃ as p as' q, MemCrew.Steps side work { proc := p0 } as p ∧ p.proc.app = .ended (.ok ()) ∧
      Spec.given side p.proc = Spec.given side p0 ++ [.request r, .request (.shutdown sid), .notification .exit] ∧
      Spec.replied side p.proc = Spec.replied side p0 ++ [Spec.goodbye sid] ∧
      MemCrew.Steps side work p as' q ∧ (∀ a ∈ as', a = .main) ∧
      Spec.replied side q.proc = Spec.replied side p0 ++ Spec.goodbye sid :: ms := by
  obtain ⟨as3, p3, r2, d1, d3, d0, d4, d5, l3⟩ := memCrew_asked (work := work) h0 hidle ht hl hall sid
    [.notification .exit] hn hwk
  -- what a step of the threads leaves
  have keep : ∀ {as p a q}, MemCrew.Steps side work { proc := p0 } as p → MemCrew.Step side work p a q → a ≠ .tester →
      Spec.given side q.proc = Spec.given side p.proc ∧ (Spec.Listens side q.proc ↔ Spec.Listens side p.proc) := by
    intro as p a q h1 h2 h3
    obtain ⟨_, _, I⟩ := memCrewInv h0 hidle h1
    obtain ⟨_, _, h4, _, h5⟩ := memCrewWork_decreases I.mem.conn h2 h3
    exact ⟨h4, h5⟩
  have recvd : ∀ (q : MemSession.Proc) (m : Message), q.outcome side .recv = .received m →
      Spec.received side (q.does side .recv) = Spec.received side q ++ [m] ∧
      Spec.replied side (q.does side .recv) = Spec.replied side q := by
    intro q m h4
    exact ⟨by simp [Spec.received, does_seen, h4, receivedBy_append, Spec.receivedBy],
      by simp [Spec.replied, does_seen, h4, sentBy_append, Spec.sentBy]⟩
  have next : ∀ {as p} (_ : MemCrew.Steps side work { proc := p0 } as p) {m rest}, p.proc.app.receives = true →
      Spec.given side p.proc = Spec.received side p.proc ++ m :: rest → p.proc.outcome side .recv = .received m := by
    intro as p h m rest h1 h2
    obtain ⟨_, _, I⟩ := memCrewInv h0 hidle h
    have := I.rx fun r h => by rw [h] at h1; cases h1
    exact recv_next I.mem (by omega) h2
  -- its answer
  obtain ⟨_, _, I3⟩ := memCrewInv h0 hidle r2
  have t3 := I3.tx (.inl (by simp [d1]))
  have o3 : p3.proc.outcome side (.send (Spec.goodbye sid)) = .sent (Spec.goodbye sid) := by
    rcases send_outcome (side := side) I3.mem (by omega) (Spec.goodbye sid) with ⟨h, _⟩ | ⟨_, h⟩
    · exact h
    · exact absurd l3 h
  have s3 := MemCrew.Step.reply (side := side) (work := work) (p := p3) (by rw [d1]; rfl) o3
  have r3 := MemCrew.Steps.snoc r2 s3
  have k3 := keep r2 s3 (by simp)
  generalize hp4 : ({ p3 with proc := { p3.proc.does side (.send (Spec.goodbye sid)) with
    app := onSent p3.proc.app true }, mine := p3.mine ++ [Spec.goodbye sid] } : MemCrew.State) = p4 at s3 r3 k3
  have f4 : p4.proc.app = .leaving ∧ p4.jobs = [⟨r, [], ms, []⟩] ∧
      Spec.received side p4.proc = Spec.received side p0 ++ [.request r, .request (.shutdown sid)] ∧
      Spec.replied side p4.proc = Spec.replied side p0 ++ [Spec.goodbye sid] := by
    subst hp4
    refine ⟨by simp only; rw [d1]; rfl, d3, ?_, ?_⟩
    · rw [← d4]; simp [Spec.received, does_seen, o3, receivedBy_append, Spec.receivedBy]
    · rw [← d5]; simp [Spec.replied, does_seen, o3, sentBy_append, Spec.sentBy]
  obtain ⟨x1, x2, x3, x4⟩ := f4
  -- exit
  have g4 : Spec.given side p4.proc = Spec.received side p4.proc ++ .notification .exit :: [] := by
    rw [k3.1, d0, x3, hall]; simp
  have o4 := next r3 (by rw [x1]; rfl) g4
  have s4 := MemCrew.Step.recv (side := side) (work := work) (p := p4) (by rw [x1]; rfl) o4 (by
    intro r'; rw [x1]; exact fun h => by cases h)
  have r4 := MemCrew.Steps.snoc r3 s4
  have k4 := keep r3 s4 (by simp)
  have b4 := recvd _ _ o4
  generalize hp5 : ({ p4 with proc := { p4.proc.does side .recv with
    app := Crew.onRecv p4.proc.app (some (.notification .exit)) } } : MemCrew.State) = p5 at s4 r4 k4
  have f5 : p5.proc.app = .ended (.ok ()) ∧ p5.jobs = [⟨r, [], ms, []⟩] ∧
      Spec.replied side p5.proc = Spec.replied side p0 ++ [Spec.goodbye sid] := by
    subst hp5
    exact ⟨by simp only; rw [x1]; rfl, x2, b4.2.trans x4⟩
  obtain ⟨y1, y2, y3⟩ := f5
  -- the thread
  obtain ⟨bs, q, z1, z2, _, z3⟩ := memCrew_sends h0 hidle ms p5 _ [] r4 (k4.2.2 (k3.2.2 l3)) y2
  exact ⟨_, p5, bs, q, r4, y1, by rw [k4.1, k3.1, d0], y3, z1, z3, by rw [z2, y3]; simp⟩

/-! ### The same threads on a real connection -/

variable [FloatText] {k : Transport.Kind}

theorem merged_all {f : Request → List Message} {l : List (Request × List Message)} {reqs : List Request}
    {sent : List Message} (h1 : l.map (·.1) = reqs) (h2 : ∀ x ∈ l, x.2 = f x.1) (h3 : Spec.Merged (l.map (·.2)) sent) :
    sent.Perm (reqs.flatMap f) := by
  have : l.map (·.2) = reqs.map f := by
    rw [← h1, List.map_map]
    exact List.map_congr_left h2
  rw [this] at h3
  exact merged_perm h3

/-- C138: if what a thread has to send depends on its request only, and the same requests come, in whatever order, from a
tester and over stdio or a socket, and none of them asks for shutdown: then when nothing more can happen by itself and no
write has failed, the same messages have been sent, in whatever order. -/
theorem C138_same {f : Request → List Message} (h0 : MemSession.Steps side process {} as0 p0) (hidle : p0.app = .idle)
    (h : MemCrew.Steps side (fun r ms => ms = f r) { proc := p0 } as p) (hl : Spec.Listens side p.proc)
    (hq : MemCrew.Quiet side (fun r ms => ms = f r) p)
    {ds sent : List Message} (hd : Spec.received side p.proc = Spec.received side p0 ++ ds)
    (ha : Spec.replied side p.proc = Spec.replied side p0 ++ sent) (hs : Spec.NoShutdown ds)
    {io : Transport.State} {q : Crew.State} {bs : List Pool.Act} (hio : Transport.Reachable k io)
    (hx : io.rxAlive = true) (ht : io.txAlive = true) (hw : io.writer ≠ Transport.writeError k)
    (h' : Crew.Steps k (fun r ms => ms = f r) { io := io } bs q) (hb : Pool.Act.writeFails ∉ bs)
    (hq' : Crew.Quiet k (fun r ms => ms = f r) q)
    {ds' sent' : List Message} (hd' : q.io.delivered = io.delivered ++ ds') (ha' : q.io.accepted = io.accepted ++ sent')
    (hp : (Spec.requests ds').Perm (Spec.requests ds)) : sent.Perm sent' := by
  obtain ⟨es, sent1, l, e1, e2, e3, e4, e5, e6, _⟩ := C138_rest (work := fun r ms => ms = f r) h0 hidle (fun r => ⟨f r, rfl⟩) h hl hq
    (by rw [hd, List.drop_left' rfl]; exact hs)
  rw [← e2, hd, List.append_cancel_left_eq] at e1
  rw [ha, List.append_cancel_left_eq] at e3
  subst e1 e3
  have hno : Spec.NoShutdown ds' := by
    intro id hid
    have h1 : Request.shutdown id ∈ Spec.requests ds' := by
      obtain ⟨a, b, rfl⟩ := List.append_of_mem hid
      rw [reqs_append]
      simp [Spec.requests]
    have h2 := hp.mem_iff.1 h1
    have key : ∀ ds : List Message, Request.shutdown id ∈ Spec.requests ds → Message.request (.shutdown id) ∈ ds := by
      intro ds
      induction ds with
      | nil => intro h; cases h
      | cons m ds ih =>
        cases m with
        | request r =>
          intro h
          simp only [Spec.requests, List.mem_cons] at h
          rcases h with h | h
          · simp [h]
          · exact List.mem_cons_of_mem _ (ih h)
        | _ => intro h; exact List.mem_cons_of_mem _ (ih (by simpa [Spec.requests] using h))
    exact hs id (key ds h2)
  obtain ⟨es, sent1, l', g1, g2, g3, g4, g5, _⟩ := C121_rest (work := fun r ms => ms = f r) hio hx ht hw (fun r => ⟨f r, rfl⟩) h' hb hq'
    (by rw [hd', List.drop_left' rfl]; exact hno)
  rw [hd', List.append_cancel_left_eq] at g1
  rw [ha', List.append_cancel_left_eq] at g2
  subst g1 g2
  exact (merged_all e4 e5 e6).trans ((hp.flatMap_right f).symm.trans (merged_all g3 g4 g5).symm)

end

/-! ### Concrete cases -/

section
attribute [local instance] Ext.sample FloatText.sample Dbg.sample

/-- Beside C138 (rest, exists): a tester sends two requests and exit.  For each request one thread has sent all it had to
send, and the main thread still waits for more. -/
example (side : Side) : ∃ as0 p0 as p l1 l2 sent, MemSession.Steps side sampleHandler {} as0 p0 ∧
    MemCrew.Steps side sampleWork { proc := p0 } as p ∧ p.proc.app = .idle ∧
    Spec.received side p.proc = Spec.received side p0 ++ samplePool.map (·.2) ++ [.notification .exit] ∧
    sampleWork (.workspaceBuildTargets (.i32 2)) l1 ∧ sampleWork (.workspaceReload (.str "a")) l2 ∧
    Spec.replied side p.proc = Spec.replied side p0 ++ sent ∧ Spec.Merged [l1, l2] sent := by
  obtain ⟨as0, p0, h0, h1, h2, h3, h4⟩ := memStart side
  obtain ⟨as, p, b1, b2, b3, b4, b5, _⟩ := C138_exists (work := sampleWork) h0 h1 h2 h3
    (samplePool.map (·.2) ++ [.notification .exit])
  have hpre := (C138_sent h0 h1 b1).1
  obtain ⟨ds, sent, l, c1, c2, c3, c4, c5, c6, c7⟩ := C138_rest h0 h1 sampleWork_some b1 b4 b2 (by
    obtain ⟨_, pre, post, _, _, _, e1, _⟩ := C138_sent h0 h1 b1
    rw [e1, List.drop_left' rfl]
    rw [e1, b3, h4, List.prefix_append_right_inj] at hpre
    intro id hid
    have := hpre.subset hid
    simp [samplePool] at this)
  have hds : ds = samplePool.map (·.2) ++ [.notification .exit] := by
    rw [b3, h4, List.append_cancel_left_eq] at c1
    exact c1.symm
  subst hds
  match l, c4, c5, c6 with
  | [(r1, l1), (r2, l2)], c4, c5, c6 =>
    simp only [List.map_cons, List.map_nil, samplePool, Spec.requests, List.cons_append, List.nil_append, List.cons.injEq,
      and_true] at c4
    obtain ⟨rfl, rfl⟩ := c4
    refine ⟨as0, p0, as, p, l1, l2, sent, h0, b1, ?_, by rw [c2, c1, List.append_assoc], c5 (_, l1) (by simp),
      c5 (_, l2) (by simp), c3, c6⟩
    rcases c7 with ⟨c7, _⟩ | ⟨_, c7⟩
    · exact c7
    · exact absurd b5 c7

/-- Beside C138 (shutdown, once, ok): two requests, shutdown, exit, and a message more that is not received any more. -/
example (side : Side) : ∃ as0 p0 as p sent, MemSession.Steps side sampleHandler {} as0 p0 ∧
    MemCrew.Steps side sampleWork { proc := p0 } as p ∧ p.proc.app = .ended (.ok ()) ∧
    Spec.replied side p.proc = Spec.replied side p0 ++ sent ∧
    (Spec.answered sent).Perm [.i32 2, .str "a", .i32 3] ∧ Spec.received side p.proc ≠ Spec.given side p.proc ∧
    ∃ ds pre id, Spec.received side p.proc = Spec.received side p0 ++ ds ∧
      ds = pre ++ [.request (.shutdown id), .notification .exit] := by
  obtain ⟨as0, p0, h0, h1, h2, h3, h4⟩ := memStart side
  obtain ⟨as, p, b1, b2, b3, b4, b5, b6⟩ := C138_exists (work := sampleWork) h0 h1 h2 h3
    (samplePool.map (·.2) ++ [.request (.shutdown (.i32 3)), .notification .exit, .notification .exit])
  have hg : Spec.given side p.proc = Spec.received side p0 ++ samplePool.map (·.2) ++
      [.request (.shutdown (.i32 3)), .notification .exit] ++ [.notification .exit] := by
    rw [b3, h4]; simp
  have hs : Spec.NoShutdown (samplePool.map (·.2)) := by simp [Spec.NoShutdown, samplePool]
  obtain ⟨sent, l, c1, _, _, _, _, c2⟩ := C138_shutdown h0 h1 sampleWork_some b1 b4 b2 b6 hg hs
  obtain ⟨sent', d1, d2⟩ := C138_once h0 h1 sampleWork_some sampleWork_once b1 b4 b2 b6 hg hs
  obtain ⟨ds, e1, e2⟩ := C138_ok h0 h1 b1 c2
  refine ⟨as0, p0, as, p, sent', h0, b1, c2, d1, d2, by rw [hg, c1]; simp, ?_⟩
  rcases e2 with ⟨pre, id, e2, _⟩ | ⟨_, e2, _⟩
  · exact ⟨ds, pre, id, e1, e2⟩
  · exact absurd b5 e2

/-- Beside C138 (late, sent, never_waits, settles, terminates): a thread sends a notification and its answer after the main
thread has ended; then nothing is left to be done, and nothing can go on for ever. -/
example (side : Side) : ∃ as0 p0 as q sent, MemSession.Steps side sampleHandler {} as0 p0 ∧
    MemCrew.Steps side sampleWork { proc := p0 } as q ∧
    Spec.replied side q.proc = Spec.replied side p0 ++ sent ∧
    sent = [Spec.goodbye (.i32 3), .notification .exit, .response ⟨.str "a", some Value.null, none⟩] ∧
    (∃ (mine : List Message) (l : List (Request × List Message × List Message)), Spec.Merged (mine :: l.map (·.2.1)) sent ∧
      ∀ x ∈ l, sampleWork x.1 (x.2.1 ++ x.2.2)) ∧
    (∃ bs r, MemCrew.Steps side sampleWork q bs r ∧ MemCrew.Quiet side sampleWork r) ∧
    Acc (fun q p : MemCrew.State => ∃ a, a ≠ .tester ∧ MemCrew.Step side sampleWork p a q) q := by
  obtain ⟨as0, p0, h0, h1, h2, h3, h4⟩ := memStart side
  obtain ⟨as, p, as', q, a1, a2, a3, a4, a5, _, a6⟩ := C138_late (work := sampleWork) h0 h1 h2 h3 h4
    (r := .workspaceReload (.str "a")) (ms := [.notification .exit, .response ⟨.str "a", some Value.null, none⟩])
    (.i32 3) (by simp) ⟨[.exit], rfl⟩
  have hr := memCrew_append a1 a5
  obtain ⟨_, pre, post, sent, mine, l, b1, b2, b3, b4, b5, b6, _⟩ := C138_sent h0 h1 hr
  obtain ⟨bs, r, c1, c2, _⟩ := C138_settles h0 h1 hr
  have hs : sent = [Spec.goodbye (.i32 3), .notification .exit, .response ⟨.str "a", some Value.null, none⟩] := by
    rw [a6, List.append_cancel_left_eq] at b2
    exact b2.symm
  exact ⟨as0, p0, _, q, sent, h0, hr, b2, hs, ⟨mine, l, b6, b5⟩, ⟨bs, r, c1, c2⟩, C138_terminates h0 h1 hr⟩

/-- Beside C138 (never_waits, reply): a request and a request to shut down are received; the tester drops its receiver; then
the answer to shutdown fails at once and so does the thread. -/
example (side : Side) : ∃ as0 p0 as p q q' l, MemSession.Steps side sampleHandler {} as0 p0 ∧
    MemCrew.Steps side sampleWork { proc := p0 } as p ∧ p.proc.app = .stopping (.i32 3) ∧
    p.jobs = [⟨.workspaceReload (.str "a"), [], l, []⟩] ∧ l ≠ [] ∧
    MemCrew.Step side sampleWork p .main q ∧ q.proc.app = .leaving ∧
    MemCrew.Step side sampleWork q .main ⟨q', q.mine, [⟨.workspaceReload (.str "a"), [], [], l⟩]⟩ ∧
    Spec.replied side q' = Spec.replied side p0 := by
  obtain ⟨as0, p0, h0, h1, h2, h3, h4⟩ := memStart side
  obtain ⟨as, p, a1, a2, a3, a4, a5, a6, a7⟩ := memCrew_asked (work := sampleWork) h0 h1 h2 h3 h4
    (r := .workspaceReload (.str "a")) (ms := [.response ⟨.str "a", some Value.null, none⟩]) (.i32 3) [] (by simp)
    ⟨[], rfl⟩
  obtain ⟨as', p', r1, hno, e1, e2, e3⟩ := memCrew_deaf h0 h1 _ p as a1 rfl
  obtain ⟨q, b1, b2, b3, _, b4⟩ := C138_reply h0 h1 r1 (e1.trans a2)
  have hno' : ¬ Spec.Listens side q.proc := by
    obtain ⟨_, _, I'⟩ := memCrewInv h0 h1 r1
    exact fun h => hno ((memCrewWork_decreases I'.mem.conn b1 (by simp)).2.2.2.2.1 h)
  rcases C138_never_waits h0 h1 (.snoc r1 b1) (a := []) (b := []) (b3.trans (e2.trans a3)) with ⟨c, _⟩ | ⟨_, q', c1, c2⟩
  · exact absurd c hno'
  · exact ⟨as0, p0, _, _, q, q', _, h0, r1, e1.trans a2, e2.trans a3, by simp, b1, b2, c1, by rw [c2, b4 hno]; exact e3.trans a6⟩

/-- Beside C138_same: two requests from a tester, and the same in the other order over a real connection, whatever the threads
send for a request. -/
example (side : Side) (k : Transport.Kind) (f : Request → List Message) : ∃ as0 p0 as p bs q sent,
    MemSession.Steps side sampleHandler {} as0 p0 ∧ MemCrew.Steps side (fun r ms => ms = f r) { proc := p0 } as p ∧
    Spec.received side p.proc = Spec.received side p0 ++ (samplePool.map (·.2)).reverse ∧
    Spec.replied side p.proc = Spec.replied side p0 ++ sent ∧
    Crew.Steps k (fun r ms => ms = f r) { io := {} } bs q ∧ q.io.delivered = samplePool.map (·.2) ∧
    sent.Perm q.io.accepted := by
  obtain ⟨as0, p0, h0, h1, h2, h3, h4⟩ := memStart side
  obtain ⟨as, p, b1, b2, b3, b4, b5, b6⟩ := C138_exists (work := fun r ms => ms = f r) h0 h1 h2 h3
    (samplePool.map (·.2)).reverse
  have hns : Spec.NoShutdown (samplePool.map (·.2)).reverse := by simp [Spec.NoShutdown, samplePool]
  have hrest : ∃ sent, Spec.received side p.proc = Spec.received side p0 ++ (samplePool.map (·.2)).reverse ∧
      Spec.replied side p.proc = Spec.replied side p0 ++ sent := by
    have hpre := (C138_sent h0 h1 b1).1
    obtain ⟨ds, sent, l, c1, c2, c3, _⟩ := C138_rest (work := fun r ms => ms = f r) h0 h1 (fun r => ⟨f r, rfl⟩) b1 b4 b2 (by
      obtain ⟨_, pre, post, _, _, _, e1, _⟩ := C138_sent h0 h1 b1
      rw [e1, List.drop_left' rfl]
      rw [e1, b3, h4, List.prefix_append_right_inj] at hpre
      exact fun id hid => hns id (hpre.subset hid))
    exact ⟨sent, by rw [c2, b3, h4], c3⟩
  obtain ⟨sent, c1, c2⟩ := hrest
  -- the real connection
  have hw : ({} : Transport.State).writer ≠ Transport.writeError k := by cases k <;> simp [Transport.writeError]
  obtain ⟨bs, q, d1, d2, d3⟩ := C121_settles k (fun r ms => ms = f r)
    { io := { arrived := framed samplePool, unread := framed samplePool } }
  have d4 : Crew.Step k (fun r ms => ms = f r) { io := {} } .peer
      { io := { arrived := framed samplePool, unread := framed samplePool } } := .io (.arrive _ _ rfl) rfl
  obtain ⟨d5, d6⟩ := crew_arrived d1 (fun h => (d3 _ h).1 rfl)
  have hrun := crew_cons d4 d1
  have hb : Pool.Act.writeFails ∉ Pool.Act.peer :: bs := by
    simp only [List.mem_cons, reduceCtorEq, false_or]
    exact fun h => (d3 _ h).2.2 rfl
  have hr : Transport.Reachable k q.io := by
    obtain ⟨_, _, I⟩ := crewInv (reachable_start k) rfl rfl hrun
    exact I.reach
  have hpre : q.io.delivered <+: samplePool.map (·.2) := by
    have := C51_prefix hr [] false
    rw [d5, readAll_carries samplePool_carries.1] at this
    simpa [Frame.readAll, readAll_eq, (readMsg_nil).1] using this
  have hall : q.io.delivered = samplePool.map (·.2) := by
    obtain ⟨_, _, _, _, _, _, _, _, _, e⟩ := C121_rest (work := fun r ms => ms = f r) (reachable_start k) rfl rfl hw
      (fun r => ⟨f r, rfl⟩) hrun hb d2 (by
        intro id h
        have := hpre.subset (by simpa using h)
        simp [samplePool] at this)
    rcases e with ⟨_, _, e⟩ | ⟨_, _, e⟩
    · exact hpre.eq_of_length_le (e _ _ [] (by rw [d5]; simp) samplePool_carries.1).length_le
    · exfalso
      rcases e with e | ⟨stop, e⟩
      · have := hpre.subset e
        simp [samplePool] at this
      · simp only [Spec.Input, d6] at e
        have e1 := congrArg (·.2) (e [] false)
        have e2 := congrArg (·.2) (e [] true)
        rw [d5, readAll_carries samplePool_carries.1] at e1 e2
        simp [readAll_eq, (readMsg_nil).1, (readMsg_nil).2] at e1 e2
        rw [← e1] at e2
        cases e2
  refine ⟨as0, p0, as, p, _, q, sent, h0, b1, c1, c2, hrun, hall, ?_⟩
  exact C138_same h0 h1 b1 b4 b2 c1 c2 hns (reachable_start k) rfl rfl hw hrun hb d2 (ds' := samplePool.map (·.2))
    (sent' := q.io.accepted) (by simpa using hall) (by simp) (by
      simp only [samplePool, List.map_cons, List.map_nil, List.reverse_cons, List.reverse_nil, List.nil_append,
        List.cons_append, Spec.requests]
      exact .swap _ _ _)

end
end Bsp
