/-
C135: workers on one end of `Connection::memory`.
-/
import Verif.MemPool
import Verif.Props.MemSession
import Verif.Props.Desk

set_option linter.unusedSectionVars false

namespace Bsp
open Conn Session Mem

section
variable [Ext] [Dbg] {side : Side} {process : InitializeBuild → Option Value} {n : Nat}

/-! ### Specification -/

/-- How many of these messages are requests to shut down. Specification about bsp-server/src/lib.rs:178-181. -/
def Spec.askedToStop (ds : List Message) : Nat :=
  ds.countP fun | .request (.shutdown _) => true | _ => false

/-- How many of these workers are about to receive at the head of the loop. Specification about README.md:37. -/
def Spec.inTheLoop (l : List App) : Nat := l.countP fun | .idle => true | _ => false

/-! ### The invariant -/

/-- A worker that is not in the loop any more. -/
def hasParted : App → Bool
  | .stopping _ | .leaving | .ended _ => true
  | _ => false

/-- The accounts of the workers. -/
structure MemTally (side : Side) (p0 : MemSession.Proc) (as : List MemSession.Act) (p : MemPool.State)
    (ds sent : List Message) (served lost : List Request) (failed : List Message) : Prop where
  delivered : Spec.received side p.main = Spec.received side p0 ++ ds
  accepted : Spec.replied side p.main = Spec.replied side p0 ++ sent
  answered : (sent ++ owed p.workers ++ failed).Perm (served.map answerTo)
  received : (served ++ lost).Perm (Spec.requests ds)
  late : ∀ r ∈ lost, Spec.AfterShutdown ds (.request r)
  broken : failed ≠ [] → ¬ Spec.Listens side p.main
  asked : ∀ x ∈ p.workers, leaves x = true → ∃ id, Message.request (.shutdown id) ∈ ds
  few : p.workers.countP rough ≤ (Spec.requests ds).countP isShutdown + failed.length
  stay : Spec.Talks side p.main → p.workers.countP hasParted ≤ (Spec.requests ds).countP isShutdown + failed.length
  over : ∀ x ∈ p.workers, (∃ r, x = .ended r) → ¬ Spec.Talks side p.main →
    Spec.received side p.main = Spec.given side p.main ∨ failed ≠ [] ∨ ∃ id, Message.request (.shutdown id) ∈ ds

/-- What holds of the workers. -/
structure MemPoolInv (side : Side) (p0 : MemSession.Proc) (n : Nat) (as : List MemSession.Act) (p : MemPool.State) :
    Prop where
  mem : Inv p.main.mem p.main.seen
  len : p.workers.length = n
  own : (∃ x ∈ p.workers, ∀ r, x ≠ .ended r) →
    Spec.senders side 1 p.main.seen = 1 ∧ Spec.receivers side 1 p.main.seen = 1
  inLoop : ∀ x ∈ p.workers, InLoop x
  tally : ∃ ds sent served lost failed, MemTally side p0 as p ds sent served lost failed

/-- What a step of the tester changes. -/
theorem tester_does {q : MemSession.Proc} (im : Inv q.mem q.seen) (op : Op) :
    Spec.received side (q.does side.other op) = Spec.received side q ∧
    Spec.replied side (q.does side.other op) = Spec.replied side q ∧
    Spec.senders side 1 (q.does side.other op).seen = Spec.senders side 1 q.seen ∧
    Spec.receivers side 1 (q.does side.other op).seen = Spec.receivers side 1 q.seen ∧
    (¬ Spec.Listens side q → ¬ Spec.Listens side (q.does side.other op)) ∧
    (¬ Spec.Talks side q → ¬ Spec.Talks side (q.does side.other op) ∧
      Spec.given side (q.does side.other op) = Spec.given side q) := by
  obtain ⟨h3, h4, h5, h6⟩ := count_ne (other_ne side) q.seen (q.outcome side.other op)
  have hev := tester_ev (side := side) im op
  refine ⟨h3, h4, h5, h6, ?_, ?_⟩
  · unfold Spec.Listens
    rw [does_seen, receivers_append]
    intro h
    cases hq : q.outcome side.other op <;> simp only [Spec.receivers, if_true] <;> try exact h
    · exact absurd (hev.1 (.notification .exit) (.inl hq)) h
    · omega
  · unfold Spec.Talks Spec.given
    rw [does_seen, senders_append, sentBy_append]
    intro h
    cases hq : q.outcome side.other op <;> simp only [Spec.senders, Spec.sentBy, if_true, List.append_nil] <;>
      try exact ⟨h, trivial⟩
    · exact absurd (hev.2 _ (.inl hq)) h
    · exact absurd (hev.2 (.notification .exit) (.inr hq)) h
    · exact ⟨by omega, trivial⟩

/-- What a worker in the loop does when there is nothing to come. -/
theorem none_cases {x : App} (hx : InLoop x) (hr : x.receives = true) :
    ∃ r, Pool.onRecv x none = .ended r ∧ (r = .ok () ∨ r = disc) ∧ rough (Pool.onRecv x none) = rough x := by
  cases x <;> simp only [InLoop] at hx <;> simp [App.receives] at hr
  · exact ⟨_, rfl, .inl rfl, rfl⟩
  · exact ⟨_, rfl, .inr rfl, rfl⟩

theorem memPoolInv {p0 : MemSession.Proc} {as0 : List MemSession.Act} {p : MemPool.State} {as : List MemSession.Act}
    (h0 : MemSession.Steps side process {} as0 p0) (hidle : p0.app = .idle)
    (h : MemPool.Steps side (MemPool.start p0 n) as p) : MemPoolInv side p0 n as p := by
  generalize hp : MemPool.start p0 n = p1 at h
  induction h with
  | nil =>
    subst hp
    have hi := mem_inv h0
    refine ⟨hi.mem, by simp [MemPool.start], fun _ => hi.own (by simp [hidle]), ?_, [], [], [], [], [], ?_⟩
    · intro x h
      rw [List.eq_of_mem_replicate h]; trivial
    · have e1 : owed (MemPool.start p0 n).workers = [] := by
        simp only [owed, MemPool.start, List.filterMap_eq_nil_iff]
        intro x h
        rw [List.eq_of_mem_replicate h]; rfl
      have e2 : ∀ f : App → Bool, f .idle = false → (MemPool.start p0 n).workers.countP f = 0 := by
        intro f hf
        rw [List.countP_eq_zero]
        intro x h
        rw [List.eq_of_mem_replicate h, hf]; simp
      refine ⟨by simp [MemPool.start], by simp [MemPool.start], by simp [e1], by simp [Spec.requests], by simp, by simp,
        ?_, by simp [e2 rough rfl], by simp [e2 hasParted rfl], ?_⟩
      · intro x h h'
        rw [List.eq_of_mem_replicate h] at h'; cases h'
      · rintro x h ⟨r, rfl⟩
        cases List.eq_of_mem_replicate h
  | @snoc as q act r h1 h2 ih =>
    obtain ⟨im, hl, hown, hin, ds, sent, served, lost, failed, T⟩ := ih
    cases h2 with
    | tester _ op =>
      obtain ⟨e1, e2, e3, e4, e5, e6⟩ := tester_does (side := side) im op
      refine ⟨inv_step im _ _, hl, fun h => by
        show Spec.senders side 1 (q.main.does side.other op).seen = 1 ∧ Spec.receivers side 1 (q.main.does side.other op).seen = 1
        rw [e3, e4]; exact hown h, hin, ds, sent, served, lost, failed,
        e1.trans T.delivered, e2.trans T.accepted, T.answered, T.received, T.late, fun h => e5 (T.broken h), T.asked,
        T.few, fun h => T.stay (Classical.byContradiction fun h' => (e6 h').1 h), ?_⟩
      intro x hx hr hn
      by_cases ht : Spec.Talks side q.main
      · have hst := T.stay ht
        have : 0 < q.workers.countP hasParted := by
          rw [List.countP_pos_iff]
          obtain ⟨r, rfl⟩ := hr
          exact ⟨_, hx, rfl⟩
        by_cases hf : failed = []
        · subst hf
          exact .inr (.inr (shutdown_mem (by simp at hst; omega)))
        · exact .inr (.inl hf)
      · rcases T.over x hx hr ht with h | h
        · exact .inl (by
            show Spec.received side (q.main.does side.other op) = Spec.given side (q.main.does side.other op)
            rw [e1, (e6 ht).2, h])
        · exact .inr h
    | @recv main a b x m h3 h4 =>
      obtain ⟨s1, s2, s3⟩ := own_same (side := side) main .recv
      have hr : Spec.received side (main.does side .recv) = Spec.received side main ++ [m] := by
        simp [Spec.received, does_seen, h4, receivedBy_append, Spec.receivedBy]
      have hp : Spec.replied side (main.does side .recv) = Spec.replied side main := by
        simp [Spec.replied, does_seen, h4, sentBy_append, Spec.sentBy]
      have hown' := hown ⟨x, by simp, fun r h => by rw [h] at h3; cases h3⟩
      have hnew : Spec.senders side 1 (main.does side .recv).seen = 1 ∧
          Spec.receivers side 1 (main.does side .recv).seen = 1 := by
        simp [does_seen, h4, senders_append, receivers_append, Spec.senders, Spec.receivers, hown']
      have hmore : Spec.received side main ++ [m] <+: Spec.given side main :=
        ((outcome_cases main im side .recv).1 rfl).2.1 m h4
      have hxin := hin x (by simp)
      have hacc := T.answered
      have hrec := T.received
      have hfew := T.few
      have hstay := T.stay
      simp only [owed_mid, receives_toSend h3, Option.toList_none, List.nil_append] at hacc
      simp only [List.countP_append, List.countP_cons] at hfew hstay
      have build : ∀ (y : App) (served' lost' : List Request), Pool.onRecv x (some m) = y → InLoop y →
          ((sent ++ owed (a ++ y :: b) ++ failed).Perm (served'.map answerTo)) →
          ((served' ++ lost').Perm (Spec.requests (ds ++ [m]))) →
          (∀ r ∈ lost', Spec.AfterShutdown (ds ++ [m]) (.request r)) →
          ((a ++ y :: b).countP rough ≤ (Spec.requests (ds ++ [m])).countP isShutdown + failed.length) →
          (Spec.Talks side main →
            (a ++ y :: b).countP hasParted ≤ (Spec.requests (ds ++ [m])).countP isShutdown + failed.length) →
          (leaves y = true → ∃ id, Message.request (.shutdown id) ∈ ds ++ [m]) →
          (∀ r, y = .ended r → ∃ id, Message.request (.shutdown id) ∈ ds) →
          MemPoolInv side p0 n (as ++ [.main]) ⟨main.does side .recv, a ++ Pool.onRecv x (some m) :: b⟩ := by
        intro y served' lost' hy h7 h8 h9 h10 h11 h12 h16 h17
        rw [hy]
        refine ⟨inv_step im _ _, by simpa using hl, fun _ => hnew, ?_, ds ++ [m], sent, served', lost', failed,
          ?_, hp.trans T.accepted, h8, h9, h10, fun h => by rw [s3]; exact T.broken h, ?_, h11, fun h => h12 (by rwa [s2] at h), ?_⟩
        · intro z hz
          rcases mem_mid (x := x) hz with rfl | hz
          · exact h7
          · exact hin z hz
        · rw [hr, T.delivered, List.append_assoc]
        · intro z hz hlv
          rcases mem_mid (x := x) hz with rfl | hz
          · exact h16 hlv
          · obtain ⟨id, h⟩ := T.asked z hz hlv
            exact ⟨id, List.mem_append_left _ h⟩
        · intro z hz hzr hn
          rw [s2] at hn
          rcases mem_mid (x := x) hz with rfl | hz
          · obtain ⟨r, hzr⟩ := hzr
            obtain ⟨id, h⟩ := h17 r hzr
            exact .inr (.inr ⟨id, List.mem_append_left _ h⟩)
          · rcases T.over z hz hzr hn with h | h | ⟨id, h⟩
            · exfalso
              have := hmore.length_le
              have e : Spec.received side main = Spec.given side main := h
              rw [← e] at this
              simp only [List.length_append, List.length_singleton] at this
              omega
            · exact .inr (.inl h)
            · exact .inr (.inr ⟨id, List.mem_append_left _ h⟩)
      have hadd : ∀ r, m = .request r → Spec.requests (ds ++ [m]) = Spec.requests ds ++ [r] := by
        intro r h; subst h; simp [reqs_append, Spec.requests]
      have hkeep : (∀ r, m ≠ .request r) → Spec.requests (ds ++ [m]) = Spec.requests ds := by
        intro h
        cases m with
        | request r => exact absurd rfl (h r)
        | _ => simp [reqs_append, Spec.requests]
      have hlate : ∀ r ∈ lost, Spec.AfterShutdown (ds ++ [m]) (.request r) := fun r h => afterShutdown_mono (T.late r h) m
      have serve : ∀ (y : App) (r : Request), m = .request r → toSend y = some (answerTo r) →
          (sent ++ owed (a ++ y :: b) ++ failed).Perm ((r :: served).map answerTo) := by
        intro y r _ hy
        rw [owed_mid, hy]
        simp only [Option.toList_some, List.cons_append, List.nil_append, List.map_cons]
        exact (perm_mid ..).trans (hacc.cons _)
      have serve' : ∀ r, m = .request r → ((r :: served) ++ lost).Perm (Spec.requests (ds ++ [m])) := by
        intro r h
        rw [hadd r h]
        refine (List.Perm.cons r hrec).trans ?_
        exact (List.perm_append_singleton r _).symm
      have quiet : ∀ y : App, toSend y = none → (sent ++ owed (a ++ y :: b) ++ failed).Perm (served.map answerTo) := by
        intro y hy
        rw [owed_mid, hy]
        simpa using hacc
      rcases recv_cases hxin h3 m with ⟨rfl, id, hm, hy⟩ | ⟨rfl, r, hm, hns, hy⟩ | ⟨rfl, hm, hy⟩ | ⟨rfl, hm, hy⟩ | ⟨rfl, hm, e, hy⟩
      · refine build _ (.shutdown id :: served) lost hy trivial (serve _ _ hm rfl) (serve' _ hm) hlate ?_ ?_
          (fun _ => ⟨id, by simp [hm]⟩) (by simp)
        · rw [hadd _ hm]
          simp only [List.countP_append, List.countP_cons, List.countP_nil, rough, isShutdown] at hfew ⊢
          simp at hfew ⊢
          omega
        · intro ht
          have hstay := hstay ht
          rw [hadd _ hm]
          simp only [List.countP_append, List.countP_cons, List.countP_nil, hasParted, isShutdown] at hstay ⊢
          simp at hstay ⊢
          omega
      · have hat : answerTo r = reply r := by
          cases r with
          | shutdown id => exact absurd rfl (hns id)
          | _ => rfl
        refine build _ (r :: served) lost hy hns (serve _ _ hm (by rw [hat]; rfl)) (serve' _ hm) hlate ?_ ?_
          (by simp [leaves]) (by simp)
        · rw [hadd _ hm]
          simp only [List.countP_append, List.countP_cons, List.countP_nil, rough] at hfew ⊢
          simp at hfew ⊢
          omega
        · intro ht
          have hstay := hstay ht
          rw [hadd _ hm]
          simp only [List.countP_append, List.countP_cons, List.countP_nil, hasParted] at hstay ⊢
          simp at hstay ⊢
          omega
      · refine build _ served lost hy trivial (quiet _ rfl) (by rw [hkeep hm]; exact hrec) hlate ?_ ?_
          (by simp [leaves]) (by simp)
        · rw [hkeep hm]
          simp only [List.countP_append, List.countP_cons, rough] at hfew ⊢
          exact hfew
        · intro ht
          have hstay := hstay ht
          rw [hkeep hm]
          simp only [List.countP_append, List.countP_cons, hasParted] at hstay ⊢
          exact hstay
      · have hsd := T.asked .leaving (by simp) rfl
        refine build _ served lost hy trivial (quiet _ rfl) (by rw [hkeep (by simp [hm])]; exact hrec) hlate ?_ ?_
          (by simp [leaves]) (fun _ _ => hsd)
        · rw [hkeep (by simp [hm])]
          simp only [List.countP_append, List.countP_cons, rough] at hfew ⊢
          simp at hfew ⊢
          omega
        · intro ht
          have hstay := hstay ht
          rw [hkeep (by simp [hm])]
          simp only [List.countP_append, List.countP_cons, hasParted] at hstay ⊢
          exact hstay
      · obtain ⟨id, hsd⟩ := T.asked .leaving (by simp) rfl
        have hlast := afterShutdown_last hsd m
        have hc : (a ++ App.ended (.err e) :: b).countP rough ≤
            (Spec.requests (ds ++ [m])).countP isShutdown + failed.length := by
          simp only [reqs_append, List.countP_append, List.countP_cons, rough] at hfew ⊢
          omega
        have hc' : Spec.Talks side main → (a ++ App.ended (.err e) :: b).countP hasParted ≤
            (Spec.requests (ds ++ [m])).countP isShutdown + failed.length := by
          intro ht
          have hstay := hstay ht
          simp only [reqs_append, List.countP_append, List.countP_cons, hasParted] at hstay ⊢
          omega
        by_cases hreq : ∃ r, m = .request r
        · obtain ⟨r, hreq⟩ := hreq
          refine build _ served (lost ++ [r]) hy trivial (quiet _ rfl) ?_ ?_ hc hc' (by simp [leaves]) (fun _ _ => ⟨id, hsd⟩)
          · rw [hadd _ hreq, ← List.append_assoc]
            exact hrec.append_right _
          · intro r' h
            rcases List.mem_append.1 h with h | h
            · exact hlate r' h
            · simp only [List.mem_singleton] at h
              subst h
              rw [← hreq]
              exact hlast
        · have hreq : ∀ r, m ≠ .request r := fun r h => hreq ⟨r, h⟩
          exact build _ served lost hy trivial (quiet _ rfl) (by rw [hkeep hreq]; exact hrec) hlate hc hc' (by simp [leaves])
            (fun _ _ => ⟨id, hsd⟩)
    | @closed main a b x h3 h4 =>
      obtain ⟨s1, s2, s3⟩ := own_same (side := side) main .recv
      have hr : Spec.received side (main.does side .recv) = Spec.received side main := by
        simp [Spec.received, does_seen, h4, receivedBy_append, Spec.receivedBy]
      have hp : Spec.replied side (main.does side .recv) = Spec.replied side main := by
        simp [Spec.replied, does_seen, h4, sentBy_append, Spec.sentBy]
      have hown' := hown ⟨x, by simp, fun r h => by rw [h] at h3; cases h3⟩
      have hnew : Spec.senders side 1 (main.does side .recv).seen = 1 ∧
          Spec.receivers side 1 (main.does side .recv).seen = 1 := by
        simp [does_seen, h4, senders_append, receivers_append, Spec.senders, Spec.receivers, hown']
      obtain ⟨hall, hnone⟩ := ((outcome_cases main im side .recv).1 rfl).2.2.1 h4
      have hnt : ¬ Spec.Talks side main := by unfold Spec.Talks; omega
      have hxin := hin x (by simp)
      obtain ⟨r, hy, hrr, hro⟩ := none_cases hxin h3
      have hacc := T.answered
      have hfew := T.few
      simp only [owed_mid, receives_toSend h3, Option.toList_none, List.nil_append] at hacc
      simp only [List.countP_append, List.countP_cons, ← hro] at hfew
      rw [hy] at hfew ⊢
      refine ⟨inv_step im _ _, by simpa using hl, fun _ => hnew, ?_, ds, sent, served, lost, failed, hr.trans T.delivered,
        hp.trans T.accepted, ?_, T.received, T.late, fun h => by rw [s3]; exact T.broken h, ?_, ?_,
        fun h => absurd (by rwa [s2] at h) hnt, ?_⟩
      · intro z hz
        rcases mem_mid (x := x) hz with rfl | hz
        · trivial
        · exact hin z hz
      · simp only [owed_mid, toSend_ended, Option.toList_none, List.nil_append]
        exact hacc
      · intro z hz hlv
        rcases mem_mid (x := x) hz with rfl | hz
        · cases hlv
        · exact T.asked z hz hlv
      · simpa only [List.countP_append, List.countP_cons] using hfew
      · intro _ _ _ _
        exact .inl (by rw [hr, s1]; exact hall)
    | @send main a b x m h3 h4 =>
      obtain ⟨s1, s2, s3⟩ := own_same (side := side) main (.send m)
      have hr : Spec.received side (main.does side (.send m)) = Spec.received side main := by
        simp [Spec.received, does_seen, h4, receivedBy_append, Spec.receivedBy]
      have hp : Spec.replied side (main.does side (.send m)) = Spec.replied side main ++ [m] := by
        simp [Spec.replied, does_seen, h4, sentBy_append, Spec.sentBy]
      have hown' := hown ⟨x, by simp, fun r h => by rw [h] at h3; cases h3⟩
      have hnew : Spec.senders side 1 (main.does side (.send m)).seen = 1 ∧
          Spec.receivers side 1 (main.does side (.send m)).seen = 1 := by
        simp [does_seen, h4, senders_append, receivers_append, Spec.senders, Spec.receivers, hown']
      have hlis : Spec.Listens side main := ((outcome_cases main im side (.send m)).2.1 m rfl).2.2 h4
      have hxin := hin x (by simp)
      have hf : failed = [] := by
        cases hfl : failed with
        | nil => rfl
        | cons y l => exact absurd hlis (T.broken (by simp [hfl]))
      subst hf
      have hy : onSent x true = .idle ∧ leaves x = false ∨ onSent x true = .leaving ∧ leaves x = true := by
        cases x <;> simp only [InLoop] at hxin <;> simp [toSend] at h3
        · exact .inl ⟨rfl, rfl⟩
        · exact .inr ⟨rfl, rfl⟩
      have hro : rough (onSent x true) = rough x ∧ hasParted (onSent x true) = hasParted x := by
        cases x <;> simp only [InLoop] at hxin <;> simp [toSend] at h3 <;> exact ⟨rfl, rfl⟩
      have hacc := T.answered
      have hfew := T.few
      have hstay := T.stay
      simp only [owed_mid, h3, Option.toList_some, List.cons_append, List.nil_append] at hacc
      simp only [List.countP_append, List.countP_cons, ← hro.1] at hfew
      simp only [List.countP_append, List.countP_cons, ← hro.2] at hstay
      refine ⟨inv_step im _ _, by simpa using hl, fun _ => hnew, ?_, ds, sent ++ [m], served, lost, [], hr.trans T.delivered,
        ?_, ?_, T.received, T.late, by simp, ?_, ?_, ?_, ?_⟩
      · intro z hz
        rcases mem_mid (x := x) hz with rfl | hz
        · rcases hy with hy | hy <;> rw [hy.1] <;> trivial
        · exact hin z hz
      · rw [hp, T.accepted, List.append_assoc]
      · rw [owed_mid, onSent_toSend h3]
        refine .trans ?_ hacc
        refine .trans ?_ (perm_mid ..).symm
        simp only [List.append_assoc, Option.toList_none, List.nil_append, List.cons_append]
        exact List.perm_middle
      · intro z hz hlv
        rcases mem_mid (x := x) hz with rfl | hz
        · refine T.asked x (by simp) ?_
          rcases hy with hy | hy
          · rw [hy.1] at hlv; cases hlv
          · exact hy.2
        · exact T.asked z hz hlv
      · simpa only [List.countP_append, List.countP_cons] using hfew
      · intro h
        simpa only [List.countP_append, List.countP_cons] using hstay (by rwa [s2] at h)
      · intro z hz hzr hn
        rw [s2] at hn
        rcases mem_mid (x := x) hz with rfl | hz
        · obtain ⟨r, hzr⟩ := hzr
          rcases hy with hy | hy <;> rw [hy.1] at hzr <;> cases hzr
        · rcases T.over z hz hzr hn with h | h
          · exact .inl (by rw [hr, s1]; exact h)
          · exact .inr h
    | @unsent main a b x m h3 h4 =>
      obtain ⟨s1, s2, s3⟩ := own_same (side := side) main (.send m)
      have hr : Spec.received side (main.does side (.send m)) = Spec.received side main := by
        simp [Spec.received, does_seen, h4, receivedBy_append, Spec.receivedBy]
      have hp : Spec.replied side (main.does side (.send m)) = Spec.replied side main := by
        simp [Spec.replied, does_seen, h4, sentBy_append, Spec.sentBy]
      have hown' := hown ⟨x, by simp, fun r h => by rw [h] at h3; cases h3⟩
      have hnew : Spec.senders side 1 (main.does side (.send m)).seen = 1 ∧
          Spec.receivers side 1 (main.does side (.send m)).seen = 1 := by
        simp [does_seen, h4, senders_append, receivers_append, Spec.senders, Spec.receivers, hown']
      have hlis : ¬ Spec.Listens side main := by
        have := ((outcome_cases main im side (.send m)).2.1 m rfl).2.1 h4
        unfold Spec.Listens; omega
      have hxin := hin x (by simp)
      have hro : ∀ f : App → Bool, (if f (onSent x false) = true then 1 else 0) ≤ (if f x = true then 1 else 0) + 1 := by
        intro f; split <;> omega
      have hacc := T.answered
      have hfew := T.few
      have hstay := T.stay
      simp only [owed_mid, h3, Option.toList_some, List.cons_append, List.nil_append] at hacc
      simp only [List.countP_append, List.countP_cons] at hfew hstay
      have hns : toSend (onSent x false) = none := by
        cases x <;> simp [toSend] at h3 <;> rfl
      refine ⟨inv_step im _ _, by simpa using hl, fun _ => hnew, ?_, ds, sent, served, lost, m :: failed, hr.trans T.delivered,
        hp.trans T.accepted, ?_, T.received, T.late, fun _ => by rw [s3]; exact hlis, ?_, ?_, ?_, ?_⟩
      · intro z hz
        rcases mem_mid (x := x) hz with rfl | hz
        · cases x <;> simp only [InLoop] at hxin <;> simp [toSend] at h3 <;> trivial
        · exact hin z hz
      · rw [owed_mid, hns]
        refine .trans ?_ hacc
        refine .trans ?_ (perm_mid ..).symm
        simp only [Option.toList_none, List.nil_append]
        exact List.perm_middle
      · intro z hz hlv
        rcases mem_mid (x := x) hz with rfl | hz
        · refine T.asked x (by simp) ?_
          cases x <;> simp only [InLoop] at hxin <;> simp [toSend] at h3
          · cases hlv
          · rfl
        · exact T.asked z hz hlv
      · have := hro rough
        simp only [List.countP_append, List.countP_cons, List.length_cons] at hfew ⊢
        omega
      · intro h
        have := hro hasParted
        have hstay := hstay (by rwa [s2] at h)
        simp only [List.countP_append, List.countP_cons, List.length_cons] at hstay ⊢
        omega
      · intro _ _ _ _
        exact .inr (.inl (by simp))
    | @timeout main a b =>
      have hacc := T.answered
      refine ⟨im, by simpa using hl, fun ⟨x, h, h'⟩ => hown ⟨.leaving, by simp, by simp⟩, ?_, ds, sent, served, lost, failed,
        T.delivered, T.accepted, ?_, T.received, T.late, T.broken, ?_, ?_, ?_, ?_⟩
      · intro z hz
        rcases mem_mid (x := .leaving) hz with rfl | hz
        · trivial
        · exact hin z hz
      · simpa only [owed_mid, toSend_ended, toSend_leaving] using hacc
      · intro z hz hlv
        rcases mem_mid (x := .leaving) hz with rfl | hz
        · cases hlv
        · exact T.asked z hz hlv
      · simpa only [List.countP_append, List.countP_cons, rough] using T.few
      · simpa only [List.countP_append, List.countP_cons, hasParted] using T.stay
      · intro _ _ _ _
        exact .inr (.inr (T.asked .leaving (by simp) rfl))
    | dropRx h3 h4 =>
      obtain ⟨s1, s2, s3⟩ := own_same (side := side) q.main .dropReceiver
      have hr : Spec.received side (q.main.does side .dropReceiver) = Spec.received side q.main := by
        simp [Spec.received, does_seen, h4, receivedBy_append, Spec.receivedBy]
      have hp : Spec.replied side (q.main.does side .dropReceiver) = Spec.replied side q.main := by
        simp [Spec.replied, does_seen, h4, sentBy_append, Spec.sentBy]
      exact ⟨inv_step im _ _, hl, fun ⟨x, hx, h⟩ => by obtain ⟨r, e⟩ := h3 x hx; exact absurd e (h r), hin, ds, sent, served,
        lost, failed, hr.trans T.delivered, hp.trans T.accepted, T.answered, T.received, T.late,
        fun h => by rw [s3]; exact T.broken h, T.asked, T.few, fun h => T.stay (by rwa [s2] at h),
        fun x hx hxr h => by rw [hr, s1]; exact T.over x hx hxr (by rwa [s2] at h)⟩
    | dropTx h3 h4 =>
      obtain ⟨s1, s2, s3⟩ := own_same (side := side) q.main .dropSender
      have hr : Spec.received side (q.main.does side .dropSender) = Spec.received side q.main := by
        simp [Spec.received, does_seen, h4, receivedBy_append, Spec.receivedBy]
      have hp : Spec.replied side (q.main.does side .dropSender) = Spec.replied side q.main := by
        simp [Spec.replied, does_seen, h4, sentBy_append, Spec.sentBy]
      exact ⟨inv_step im _ _, hl, fun ⟨x, hx, h⟩ => by obtain ⟨r, e⟩ := h3 x hx; exact absurd e (h r), hin, ds, sent, served,
        lost, failed, hr.trans T.delivered, hp.trans T.accepted, T.answered, T.received, T.late,
        fun h => by rw [s3]; exact T.broken h, T.asked, T.few, fun h => T.stay (by rwa [s2] at h),
        fun x hx hxr h => by rw [hr, s1]; exact T.over x hx hxr (by rwa [s2] at h)⟩


/-! ### C135 -/

variable {p0 : MemSession.Proc} {as0 : List MemSession.Act} {p : MemPool.State} {as : List MemSession.Act}

/-- C135: whatever the tester does and however the workers take turns: what the workers have sent are answers to requests
they have received, each to a different one, and what they have received is an initial part of what the tester has sent. -/
theorem C135_once (h0 : MemSession.Steps side process {} as0 p0) (hidle : p0.app = .idle)
    (h : MemPool.Steps side (MemPool.start p0 n) as p) :
    Spec.received side p.main <+: Spec.given side p.main ∧
    ∃ ds sent served other, Spec.received side p.main = Spec.received side p0 ++ ds ∧
      Spec.replied side p.main = Spec.replied side p0 ++ sent ∧
      (served ++ other).Perm (Spec.requests ds) ∧ Spec.AnyOrder served sent := by
  obtain ⟨im, _, _, _, ds, sent, served, lost, failed, T⟩ := memPoolInv h0 hidle h
  refine ⟨received_given im, ?_⟩
  obtain ⟨xs, h1, h2, h3⟩ := anyOrder T.answered (.refl _)
  have e : xs = xs.take sent.length ++ xs.drop sent.length := (List.take_append_drop ..).symm
  refine ⟨ds, sent, (xs.take sent.length).map (·.1), (xs.drop sent.length).map (·.1) ++ lost, T.delivered, T.accepted,
    ?_, xs.take sent.length, .refl _, ?_, ?_⟩
  · rw [← List.append_assoc, ← List.map_append, ← e]
    exact (h1.append_right _).trans T.received
  · rw [List.map_take, h2, List.append_assoc, List.take_left']
    rfl
  · exact fun x hx => h3 x (List.mem_of_mem_take hx)

/-- C135: a worker that has something to send never waits, neither for the tester nor for the other workers. -/
theorem C135_never_waits (h0 : MemSession.Steps side process {} as0 p0) (hidle : p0.app = .idle)
    (h : MemPool.Steps side (MemPool.start p0 n) as p) {a b : List App} {x : App} {m : Message}
    (hw : p.workers = a ++ x :: b) (hm : toSend x = some m) :
    ∃ ok q, MemPool.Step side p .main ⟨q, a ++ onSent x ok :: b⟩ ∧ (ok = true ↔ Spec.Listens side p.main) := by
  have hi := memPoolInv h0 hidle h
  have hown := hi.own ⟨x, by simp [hw], fun r h => by rw [h] at hm; cases hm⟩
  obtain ⟨o1, o2, o3⟩ := (outcome_cases p.main hi.mem side (.send m)).2.1 m rfl
  have h1 := o1 (by omega)
  obtain ⟨y, _, _, h6⟩ := chan_from hi.mem side
  have h6 : p.main.outcome side (.send m) = (Chan.send y m).2 := h6 (.send m) (fun _ => rfl)
  have : p.main.outcome side (.send m) = .sent m ∨ p.main.outcome side (.send m) = .sendFailed m := by
    rw [h6] at h1 ⊢
    unfold Chan.send at *
    split at h1
    · simp at h1
    · rename_i h7
      rw [if_neg h7]
      split <;> simp
  have hp : p = ⟨p.main, a ++ x :: b⟩ := by rw [← hw]
  rcases this with h2 | h2
  · exact ⟨true, _, by rw [hp]; exact .send hm h2, by simpa [Spec.Listens] using o3 h2⟩
  · exact ⟨false, _, by rw [hp]; exact .unsent hm h2, by simp [Spec.Listens, o2 h2]⟩

/-- What may become of a receive. -/
theorem recv_outcome {q : MemSession.Proc} (h : Inv q.mem q.seen) (hr : 0 < Spec.receivers side 1 q.seen) :
    (∃ m, q.outcome side .recv = .received m) ∨ q.outcome side .recv = .disconnected ∨ q.outcome side .recv = .empty := by
  have hg := ((outcome_cases q h side .recv).1 rfl).1 hr
  obtain ⟨y, _, h5, _⟩ := chan_from h side.other
  rw [other_other] at h5
  have h5 : q.outcome side .recv = (Chan.recv y).2 := h5 .recv (fun _ => rfl)
  rw [h5] at hg ⊢
  unfold Chan.recv at hg ⊢
  split
  · rename_i h6
    rw [if_pos h6] at hg
    exact absurd rfl hg
  · split
    · exact .inl ⟨_, rfl⟩
    · split
      · exact .inr (.inl rfl)
      · exact .inr (.inr rfl)

/-- What is settled when the workers can do nothing but wait. -/
theorem memPool_rest (h0 : MemSession.Steps side process {} as0 p0) (hidle : p0.app = .idle)
    (h : MemPool.Steps side (MemPool.start p0 n) as p) (hq : MemPool.Quiet side p) :
    owed p.workers = [] ∧
    ((∃ x ∈ p.workers, x.receives = true) → Spec.Talks side p.main ∧ Spec.received side p.main = Spec.given side p.main) ∧
    ((¬ ∃ x ∈ p.workers, x.receives = true) → ∀ x ∈ p.workers, ∃ r, x = .ended r) := by
  have hi := memPoolInv h0 hidle h
  have hno : ∀ x ∈ p.workers, toSend x = none := by
    intro x hx
    cases hs : toSend x with
    | none => rfl
    | some m =>
      obtain ⟨a, b, hab⟩ := List.append_of_mem hx
      obtain ⟨_, _, h1, _⟩ := C135_never_waits h0 hidle h hab hs
      rcases hq _ _ h1 with h | h <;> cases h
  refine ⟨List.filterMap_eq_nil_iff.2 hno, ?_, ?_⟩
  · rintro ⟨x, hx, hr⟩
    obtain ⟨a, b, hab⟩ := List.append_of_mem hx
    have hp : p = ⟨p.main, a ++ x :: b⟩ := by rw [← hab]
    have hown := hi.own ⟨x, hx, fun r h => by rw [h] at hr; cases hr⟩
    have hc := (outcome_cases p.main hi.mem side .recv).1 rfl
    have he : p.main.outcome side .recv = .empty := by
      rcases recv_outcome (side := side) hi.mem (by omega) with ⟨m, ho⟩ | ho | ho
      · rcases hq .main _ (by rw [hp]; exact .recv hr ho) with h | h <;> cases h
      · rcases hq .main _ (by rw [hp]; exact .closed hr ho) with h | h <;> cases h
      · exact ho
    obtain ⟨h4, h5⟩ := hc.2.2.2 he
    exact ⟨h5, h4⟩
  · intro hn x hx
    rcases rests (hno x hx) with h | h
    · exact absurd ⟨x, hx, h⟩ hn
    · exact h

/-- The accounts at rest, when no request to shut down has come. -/
theorem memPool_sums (h0 : MemSession.Steps side process {} as0 p0) (hidle : p0.app = .idle)
    (h : MemPool.Steps side (MemPool.start p0 n) as p) (hl : Spec.Listens side p.main) (hq : MemPool.Quiet side p)
    (hn : 0 < n) (hs : Spec.NoShutdown ((Spec.received side p.main).drop (Spec.received side p0).length)) :
    ∃ ds sent, Spec.received side p.main = Spec.received side p0 ++ ds ∧
      Spec.replied side p.main = Spec.replied side p0 ++ sent ∧ sent.Perm ((Spec.requests ds).map answerTo) ∧
      Spec.received side p.main = Spec.given side p.main ∧
      ((Spec.Talks side p.main ∧ p.workers = List.replicate n .idle) ∨
       (¬ Spec.Talks side p.main ∧ p.workers = List.replicate n (.ended (.ok ())))) := by
  obtain ⟨ho, hr, he⟩ := memPool_rest h0 hidle h hq
  obtain ⟨im, hlen, hown, hin, ds, sent, served, lost, failed, T⟩ := memPoolInv h0 hidle h
  have hf : failed = [] := Classical.byContradiction fun h => T.broken h hl
  subst hf
  rw [T.delivered, List.drop_left' rfl] at hs
  have hlost : lost = [] := by
    rw [List.eq_nil_iff_forall_not_mem]
    intro r hr
    obtain ⟨a, id, b, h1, _⟩ := T.late r hr
    exact hs id (by rw [h1]; simp)
  subst hlost
  have hz := no_shutdown_count hs
  have hsm := smooth hin (by have := T.few; rw [hz] at this; simpa using this) ho
  have hacc := T.answered
  have hrec := T.received
  rw [ho] at hacc
  simp only [List.append_nil] at hacc hrec
  refine ⟨ds, sent, T.delivered, T.accepted, hacc.trans (hrec.map _), ?_⟩
  have hne0 : p.workers ≠ [] := by intro h; rw [h] at hlen; simp at hlen; omega
  by_cases hrc : ∃ x ∈ p.workers, x.receives = true
  · obtain ⟨h1, h2⟩ := hr hrc
    refine ⟨h2, .inl ⟨h1, ?_⟩⟩
    rw [← hlen]
    refine List.eq_replicate_of_mem ?_
    intro x hx
    rcases hsm x hx with h4 | h4
    · exact h4
    · have h5 := T.stay h1
      rw [hz] at h5
      have h6 := List.countP_eq_zero.1 (by simpa using h5) x hx
      rw [h4] at h6
      exact absurd rfl h6
  · have hall : ∀ x ∈ p.workers, x = .ended (.ok ()) := by
      intro x hx
      rcases hsm x hx with h4 | h4
      · obtain ⟨r, h5⟩ := he hrc x hx
        rw [h4] at h5; cases h5
      · exact h4
    have hnt : ¬ Spec.Talks side p.main := by
      intro h1
      have h5 := T.stay h1
      rw [hz] at h5
      obtain ⟨x, hxm⟩ := List.exists_mem_of_ne_nil _ hne0
      have h6 := List.countP_eq_zero.1 (by simpa using h5) x hxm
      rw [hall x hxm] at h6
      exact absurd rfl h6
    obtain ⟨x, hxm⟩ := List.exists_mem_of_ne_nil _ hne0
    refine ⟨?_, .inr ⟨hnt, ?_⟩⟩
    · rcases T.over x hxm ⟨_, hall x hxm⟩ hnt with h | h | ⟨id, h⟩
      · exact h
      · exact absurd rfl h
      · exact absurd h (hs id)
    · rw [← hlen]
      exact List.eq_replicate_of_mem hall

/-- C135: when the workers can do nothing but wait, no request to shut down has come and the tester still listens, every
message of the tester has been received, and every request has been answered once; either the tester can still send and
all workers are in the loop, or it cannot and all have ended well. -/
theorem C135_rest (h0 : MemSession.Steps side process {} as0 p0) (hidle : p0.app = .idle)
    (h : MemPool.Steps side (MemPool.start p0 n) as p) (hl : Spec.Listens side p.main) (hq : MemPool.Quiet side p)
    (hn : 0 < n) (hs : Spec.NoShutdown ((Spec.received side p.main).drop (Spec.received side p0).length)) :
    ∃ ds sent, Spec.given side p.main = Spec.received side p0 ++ ds ∧ Spec.received side p.main = Spec.given side p.main ∧
      Spec.replied side p.main = Spec.replied side p0 ++ sent ∧ Spec.AnyOrder (Spec.requests ds) sent ∧
      ((Spec.Talks side p.main ∧ p.workers = List.replicate n .idle) ∨
       (¬ Spec.Talks side p.main ∧ p.workers = List.replicate n (.ended (.ok ())))) := by
  obtain ⟨ds, sent, h1, h2, h3, h4, h5⟩ := memPool_sums h0 hidle h hl hq hn hs
  exact ⟨ds, sent, by rw [← h4, h1], h4, h2, anyOrder h3 (.refl _), h5⟩

theorem askedToStop_eq (ds : List Message) : Spec.askedToStop ds = (Spec.requests ds).countP isShutdown := by
  induction ds with
  | nil => rfl
  | cons m ds ih =>
    unfold Spec.askedToStop at ih ⊢
    cases m with
    | request r => cases r <;> simp [Spec.requests, List.countP_cons, ih, isShutdown]
    | _ => simpa [Spec.requests, List.countP_cons] using ih

/-- C135: as long as the tester listens and can still send, a request to shut down stops one worker at most, and exit stops
none but that one: when the workers can do nothing but wait, the others are in the loop and wait for the tester.  If there
are any, all that the tester has sent has been received. (On a real connection exit is the end of all: C117.) -/
theorem C135_stay (h0 : MemSession.Steps side process {} as0 p0) (hidle : p0.app = .idle)
    (h : MemPool.Steps side (MemPool.start p0 n) as p) (hl : Spec.Listens side p.main) (ht : Spec.Talks side p.main)
    (hq : MemPool.Quiet side p) :
    ∃ ds, Spec.received side p.main = Spec.received side p0 ++ ds ∧
      n ≤ Spec.inTheLoop p.workers + Spec.askedToStop ds ∧
      (Spec.askedToStop ds < n → Spec.received side p.main = Spec.given side p.main) := by
  obtain ⟨ho, hr, he⟩ := memPool_rest h0 hidle h hq
  obtain ⟨im, hlen, hown, hin, ds, sent, served, lost, failed, T⟩ := memPoolInv h0 hidle h
  have hf : failed = [] := Classical.byContradiction fun h => T.broken h hl
  subst hf
  have hst := T.stay ht
  simp only [List.length_nil, Nat.add_zero] at hst
  have hsplit : p.workers.length ≤ Spec.inTheLoop p.workers + p.workers.countP hasParted := by
    have hall : ∀ x ∈ p.workers, x = .idle ∨ hasParted x = true := by
      intro x hx
      have h1 := hin x hx
      have h2 := List.filterMap_eq_nil_iff.1 ho x hx
      cases x with
      | idle => exact .inl rfl
      | leaving => exact .inr rfl
      | ended r => exact .inr rfl
      | _ => first | (cases h2; done) | exact h1.elim
    generalize p.workers = l at hall
    clear hq h hlen hown hin T ho hr he hst
    induction l with
    | nil => simp
    | cons x l ih =>
      have h1 := ih fun y hy => hall y (List.mem_cons_of_mem _ hy)
      unfold Spec.inTheLoop at h1 ⊢
      rcases hall x (by simp) with rfl | h2
      · simp only [List.length_cons, List.countP_cons]; simp; omega
      · simp only [List.length_cons, List.countP_cons, h2]; simp; omega
  rw [← askedToStop_eq] at hst
  refine ⟨ds, T.delivered, by omega, fun hlt => (hr ?_).2⟩
  have : 0 < Spec.inTheLoop p.workers := by omega
  obtain ⟨x, hx, h1⟩ := List.countP_pos_iff.1 this
  cases x <;> first | (cases h1; done) | exact ⟨_, hx, rfl⟩

/-! ### Coming to rest -/

/-- What the workers have still to do. -/
def memPoolWork (side : Side) (p : MemPool.State) : Nat :=
  3 * (p.main.mem.chan (p.main.mem.conn side).receiver).queue.length + (p.workers.map rank).sum +
    (p.main.mem.chan (p.main.mem.conn side).sender).senders + (p.main.mem.chan (p.main.mem.conn side).receiver).receivers

theorem memPoolWork_decreases {p q : MemPool.State} {a : MemSession.Act} (hi : p.main.mem.conn = memory.conn)
    (h : MemPool.Step side p a q) (ha : a ≠ .tester) (ht : a ≠ .timeout) :
    memPoolWork side q < memPoolWork side p ∧ q.main.mem.conn = memory.conn ∧
      Spec.given side q.main = Spec.given side p.main ∧ (Spec.Talks side q.main ↔ Spec.Talks side p.main) ∧
      (Spec.Listens side q.main ↔ Spec.Listens side p.main) := by
  have go : ∀ (q : MemSession.Proc) (op : Op), Spec.given side (q.does side op) = Spec.given side q ∧
      (Spec.Talks side (q.does side op) ↔ Spec.Talks side q) ∧
      (Spec.Listens side (q.does side op) ↔ Spec.Listens side q) := fun q op => by
    obtain ⟨h1, h2, h3⟩ := own_same (side := side) q op
    exact ⟨h1, by rw [h2], by rw [h3]⟩
  -- each step is one of the single server, seen from one of the workers
  have one : ∀ (main main' : MemSession.Proc) (a b : List App) (x y : App) (act : MemSession.Act),
      main.mem.conn = memory.conn → act ≠ .tester → act ≠ .timeout →
      MemSession.Step side (fun _ => none) { main with app := x } act { main' with app := y } →
      memPoolWork side ⟨main', a ++ y :: b⟩ < memPoolWork side ⟨main, a ++ x :: b⟩ ∧ main'.mem.conn = memory.conn := by
    intro main main' a b x y act hc h1 h2 hst
    obtain ⟨h1, h2⟩ := mwork_decreases (p := { main with app := x }) hc hst h1 h2
    refine ⟨?_, h2⟩
    simp only [mwork, memPoolWork, List.map_append, List.map_cons, List.sum_append, List.sum_cons] at h1 ⊢
    omega
  cases h with
  | tester => exact absurd rfl ha
  | timeout => exact absurd rfl ht
  | @recv main a b x m h3 h4 =>
    obtain ⟨h5, h6⟩ := one main (main.does side .recv) a b x _ .main hi (by simp) (by simp)
      (MemSession.Step.recv (p := { main with app := x }) h3 h4)
    exact ⟨h5, h6, go main .recv⟩
  | @closed main a b x h3 h4 =>
    obtain ⟨h5, h6⟩ := one main (main.does side .recv) a b x _ .main hi (by simp) (by simp)
      (MemSession.Step.closed (p := { main with app := x }) h3 h4)
    exact ⟨h5, h6, go main .recv⟩
  | @send main a b x m h3 h4 =>
    obtain ⟨h5, h6⟩ := one main (main.does side (.send m)) a b x _ .main hi (by simp) (by simp)
      (MemSession.Step.send (p := { main with app := x }) h3 h4)
    exact ⟨h5, h6, go main (.send m)⟩
  | @unsent main a b x m h3 h4 =>
    obtain ⟨h5, h6⟩ := one main (main.does side (.send m)) a b x _ .main hi (by simp) (by simp)
      (MemSession.Step.unsent (p := { main with app := x }) h3 h4)
    exact ⟨h5, h6, go main (.send m)⟩
  | dropRx h3 h4 =>
    obtain ⟨h5, h6⟩ := mwork_decreases (p := { p.main with app := .ended (.ok ()) }) hi
      (MemSession.Step.dropRx (process := fun _ => none) rfl h4) (by simp) (by simp)
    refine ⟨?_, h6, go p.main .dropReceiver⟩
    have h5' : 3 * ((p.main.does side .dropReceiver).mem.chan ((p.main.does side .dropReceiver).mem.conn side).receiver).queue.length +
      0 + ((p.main.does side .dropReceiver).mem.chan ((p.main.does side .dropReceiver).mem.conn side).sender).senders +
      ((p.main.does side .dropReceiver).mem.chan ((p.main.does side .dropReceiver).mem.conn side).receiver).receivers <
      3 * (p.main.mem.chan (p.main.mem.conn side).receiver).queue.length + 0 +
      (p.main.mem.chan (p.main.mem.conn side).sender).senders + (p.main.mem.chan (p.main.mem.conn side).receiver).receivers := h5
    simp only [memPoolWork]
    omega
  | dropTx h3 h4 =>
    obtain ⟨h5, h6⟩ := mwork_decreases (p := { p.main with app := .ended (.ok ()) }) hi
      (MemSession.Step.dropTx (process := fun _ => none) rfl h4) (by simp) (by simp)
    refine ⟨?_, h6, go p.main .dropSender⟩
    have h5' : 3 * ((p.main.does side .dropSender).mem.chan ((p.main.does side .dropSender).mem.conn side).receiver).queue.length +
      0 + ((p.main.does side .dropSender).mem.chan ((p.main.does side .dropSender).mem.conn side).sender).senders +
      ((p.main.does side .dropSender).mem.chan ((p.main.does side .dropSender).mem.conn side).receiver).receivers <
      3 * (p.main.mem.chan (p.main.mem.conn side).receiver).queue.length + 0 +
      (p.main.mem.chan (p.main.mem.conn side).sender).senders + (p.main.mem.chan (p.main.mem.conn side).receiver).receivers := h5
    simp only [memPoolWork]
    omega

theorem memPool_cons {p q r : MemPool.State} {a : MemSession.Act} {as : List MemSession.Act}
    (h : MemPool.Step side p a q) (h' : MemPool.Steps side q as r) : MemPool.Steps side p (a :: as) r := by
  induction h' with
  | nil => exact .snoc (.nil _) h
  | snoc _ h2 ih => exact .snoc (as := a :: _) ih h2

theorem memPool_append {p q r : MemPool.State} {as bs : List MemSession.Act}
    (h : MemPool.Steps side p as q) (h' : MemPool.Steps side q bs r) : MemPool.Steps side p (as ++ bs) r := by
  induction h' with
  | nil => simpa using h
  | snoc _ h2 ih => rw [← List.append_assoc]; exact .snoc ih h2

/-- C135: left alone, the workers come to rest. -/
theorem C135_settles (h0 : MemSession.Steps side process {} as0 p0) (hidle : p0.app = .idle)
    (h : MemPool.Steps side (MemPool.start p0 n) as p) :
    ∃ bs q, MemPool.Steps side p bs q ∧ MemPool.Quiet side q ∧ (∀ a ∈ bs, a ≠ .tester ∧ a ≠ .timeout) ∧
      Spec.given side q.main = Spec.given side p.main ∧ (Spec.Talks side q.main ↔ Spec.Talks side p.main) ∧
      (Spec.Listens side q.main ↔ Spec.Listens side p.main) := by
  have key : ∀ n (p : MemPool.State), memPoolWork side p = n → p.main.mem.conn = memory.conn →
      ∃ bs q, MemPool.Steps side p bs q ∧ MemPool.Quiet side q ∧ (∀ a ∈ bs, a ≠ .tester ∧ a ≠ .timeout) ∧
        Spec.given side q.main = Spec.given side p.main ∧ (Spec.Talks side q.main ↔ Spec.Talks side p.main) ∧
        (Spec.Listens side q.main ↔ Spec.Listens side p.main) := by
    intro n
    induction n using Nat.strongRecOn with
    | ind n ih =>
      intro p hn hc
      by_cases hq : MemPool.Quiet side p
      · exact ⟨[], p, .nil _, hq, by simp, rfl, .rfl, .rfl⟩
      · simp only [MemPool.Quiet, Classical.not_forall, not_or] at hq
        obtain ⟨a, q, h1, h2, h3⟩ := hq
        obtain ⟨h4, h5, h12, h13, h14⟩ := memPoolWork_decreases hc h1 h2 h3
        obtain ⟨bs, r, h6, h7, h8, h9, h10, h11⟩ := ih _ (hn ▸ h4) q rfl h5
        refine ⟨a :: bs, r, memPool_cons h1 h6, h7, ?_, h9.trans h12, h10.trans h13, h11.trans h14⟩
        intro b hb
        rcases List.mem_cons.1 hb with rfl | hb
        · exact ⟨h2, h3⟩
        · exact h8 b hb
  exact key _ p rfl (memPoolInv h0 hidle h).mem.conn

/-- The tester sends these messages one after the other, and the workers do nothing meanwhile. -/
theorem memPool_told (h0 : MemSession.Steps side process {} as0 p0) (hidle : p0.app = .idle) (ht : Spec.Talks side p0)
    (ms : List Message) : ∃ as p, MemPool.Steps side (MemPool.start p0 n) as p ∧
      Spec.given side p.main = Spec.given side p0 ++ ms ∧ Spec.received side p.main = Spec.received side p0 ∧
      (Spec.Listens side p.main ↔ Spec.Listens side p0) ∧ Spec.Talks side p.main ∧
      Inv p.main.mem p.main.seen ∧ Spec.receivers side 1 p.main.seen = 1 ∧ p.workers = List.replicate n .idle := by
  generalize hr : ms.reverse = rs
  induction rs generalizing ms with
  | nil =>
    have : ms = [] := by simpa using hr
    subst this
    have hi := mem_inv h0
    exact ⟨[], _, .nil _, by simp [MemPool.start], rfl, .rfl, ht, hi.mem, (hi.own (by simp [hidle])).2, rfl⟩
  | cons m rs ih =>
    obtain ⟨as, p, h1, h2, h3, h4, h5, h6, h7, h9⟩ := ih rs.reverse (by simp)
    have ho : p.main.outcome side.other (.send m) = .sent m := by
      obtain ⟨x, hx, _, h8⟩ := chan_from h6 side.other
      have h8 : p.main.outcome side.other (.send m) = (Chan.send x m).2 := h8 (.send m) (fun _ => rfl)
      rw [other_other] at hx
      rw [h8]
      unfold Chan.send
      have := hx.senders
      rw [if_neg (by unfold Spec.Talks at h5; omega), if_neg (by rw [hx.receivers, h7]; simp)]
    have hms : ms = rs.reverse ++ [m] := by
      rw [← List.reverse_reverse ms, hr]; simp
    obtain ⟨e1, e2, e3, e4, e5, e6⟩ := tester_does (side := side) h6 (.send m)
    refine ⟨_, _, .snoc h1 (.tester p (.send m)), ?_, e1.trans h3, ?_, ?_, inv_step h6 _ _, e4.trans h7, h9⟩
    · show Spec.given side (p.main.does side.other (.send m)) = _
      rw [Spec.given, does_seen, ho, sentBy_append, ← Spec.given, h2, hms]; simp [Spec.sentBy]
    · rw [← h4]
      show Spec.Listens side (p.main.does side.other (.send m)) ↔ _
      simp [Spec.Listens, does_seen, ho, receivers_append, Spec.receivers]
    · show Spec.Talks side (p.main.does side.other (.send m))
      simpa [Spec.Talks, does_seen, ho, senders_append, Spec.senders] using h5

/-- C135: whatever the tester sends without waiting for answers, there is a run in which the workers come to rest. -/
theorem C135_exists (h0 : MemSession.Steps side process {} as0 p0) (hidle : p0.app = .idle) (ht : Spec.Talks side p0)
    (hl : Spec.Listens side p0) (ms : List Message) : ∃ as p, MemPool.Steps side (MemPool.start p0 n) as p ∧
      MemPool.Quiet side p ∧ Spec.given side p.main = Spec.given side p0 ++ ms ∧ Spec.Listens side p.main ∧
      Spec.Talks side p.main := by
  obtain ⟨as, p, h1, h2, h3, h4, h5, _⟩ := memPool_told (n := n) h0 hidle ht ms
  obtain ⟨bs, q, g1, g2, g3, g4, g5, g6⟩ := C135_settles h0 hidle h1
  exact ⟨_, q, memPool_append h1 g1, g2, g4.trans h2, g6.2 (h4.2 hl), g5.2 h5⟩

/-! ### The same workers on a real connection -/

variable [FloatText] {k : Transport.Kind}

/-- C135: workers that have got the same requests, in whatever order, `n` of them from a tester and `n'` of them over stdio
or a socket, have sent the same answers, in whatever order, when nothing more can happen by itself and none of them has
been asked to shut down. -/
theorem C135_same (h0 : MemSession.Steps side process {} as0 p0) (hidle : p0.app = .idle)
    (h : MemPool.Steps side (MemPool.start p0 n) as p) (hl : Spec.Listens side p.main) (hq : MemPool.Quiet side p)
    (hn : 0 < n) {ds sent : List Message} (hd : Spec.received side p.main = Spec.received side p0 ++ ds)
    (ha : Spec.replied side p.main = Spec.replied side p0 ++ sent) (hs : Spec.NoShutdown ds)
    {io : Transport.State} {n' : Nat} {q : Pool.State} {bs : List Pool.Act} (hio : Transport.Reachable k io)
    (hx : io.rxAlive = true) (ht : io.txAlive = true) (hw : io.writer ≠ Transport.writeError k)
    (h' : Pool.Steps k (Pool.start io n') bs q) (hb : Pool.Act.writeFails ∉ bs) (hq' : Pool.Quiet k q)
    {ds' sent' : List Message} (hd' : q.io.delivered = io.delivered ++ ds') (ha' : q.io.accepted = io.accepted ++ sent')
    (hp : (Spec.requests ds').Perm (Spec.requests ds)) : sent.Perm sent' := by
  obtain ⟨es, sent1, e1, e2, e3, _⟩ := memPool_sums h0 hidle h hl hq hn (by rw [hd, List.drop_left' rfl]; exact hs)
  rw [hd, List.append_cancel_left_eq] at e1
  rw [ha, List.append_cancel_left_eq] at e2
  subst e1 e2
  have hi := poolInv hio hx ht h'
  have hne := pool_no_fail h' hb hw
  obtain ⟨ho, _⟩ := pool_rest hi hne hq'
  obtain ⟨_, _, _, _, es, sent1, served, lost, failed, T⟩ := hi
  have e1 := T.delivered
  have e2 := T.accepted
  rw [hd', List.append_cancel_left_eq] at e1
  rw [ha', List.append_cancel_left_eq] at e2
  subst e1 e2
  have hf : failed = [] := Classical.byContradiction fun h => hne (T.broken h)
  have hno : (Spec.requests ds').countP isShutdown = 0 := by rw [hp.countP_eq, no_shutdown_count hs]
  have hlost : lost = [] := by
    rw [List.eq_nil_iff_forall_not_mem]
    intro r hr
    obtain ⟨a, id, b, h1, _⟩ := T.late r hr
    rw [h1, reqs_append] at hno
    simp [Spec.requests, isShutdown] at hno
  subst hf hlost
  have hacc := T.answered
  have hrec := T.received
  rw [ho] at hacc
  simp only [List.append_nil] at hacc hrec
  exact e3.trans (((hrec.trans hp).map _).symm.trans hacc.symm)

end

section
variable [LawfulExt] [Dbg] [FloatText] {side : Side} {process : InitializeBuild → Option Value} {n : Nat}
variable {c : Flow.Caps} {kc ks : Transport.Kind} {said : List Message}

/-- C135: a test on `Connection::memory` cannot show the deadlock of C129.  A tester that sends all requests before it
receives anything finds every one of them answered, whatever the number of workers and of requests, and there is such a
run; a client that does the same over stdio or a socket never receives anything, if the requests are so many. -/
theorem C135_hides {p0 : MemSession.Proc} {as0 : List MemSession.Act} (h0 : MemSession.Steps side process {} as0 p0)
    (hidle : p0.app = .idle) (ht : Spec.Talks side p0) (hl : Spec.Listens side p0)
    (hall : Spec.received side p0 = Spec.given side p0) (hn : 1 ≤ n) {w0 : Desk.World}
    (hm : Spec.Staffed kc ks n w0) (hf : Flow.Reachable c kc ks (Desk.sides w0)) (hs : Spec.Askable said)
    (hmany : n + 2 * c.toRight / 21 + 2 * c.toLeft / 21 + 5 ≤ (Spec.requests (said.map Spec.heard)).length) :
    (∀ as p, MemPool.Steps side (MemPool.start p0 n) as p → MemPool.Quiet side p → Spec.Listens side p.main →
      Spec.given side p.main = Spec.given side p0 ++ said.map Spec.heard →
      ∃ sent, Spec.replied side p.main = Spec.replied side p0 ++ sent ∧
        Spec.AnyOrder (Spec.requests (said.map Spec.heard)) sent) ∧
    (∃ as p, MemPool.Steps side (MemPool.start p0 n) as p ∧ MemPool.Quiet side p ∧ Spec.Listens side p.main ∧
      Spec.given side p.main = Spec.given side p0 ++ said.map Spec.heard) ∧
    (∀ as w, Desk.Dialog c kc ks (w0.client.io.accepted ++ said) (fun _ _ => true) w0 as w → w.client.gone = false →
      w.client.io.rxAlive = true → w.client.io.delivered = w0.client.io.delivered) := by
  refine ⟨?_, ?_, fun as w h hg hr => (C129_never hn hm hf hs hmany h hg hr).1⟩
  · intro as p h hq hl' hg
    have hpre := (C135_once h0 hidle h).1
    obtain ⟨ds, sent, e1, e2, e3, e4, _⟩ := C135_rest h0 hidle h hl' hq hn (by
      intro id hid
      have h1 := hpre.subset (List.mem_of_mem_drop hid)
      obtain ⟨_, _, _, _, ds, _, _, _, _, T⟩ := memPoolInv h0 hidle h
      rw [T.delivered, hg, hall, List.prefix_append_right_inj] at hpre
      rw [T.delivered, List.drop_left' rfl] at hid
      obtain ⟨m, _, h2⟩ := List.mem_map.1 (hpre.subset hid)
      exact heard_shutdown m id h2)
    rw [hg, hall, List.append_cancel_left_eq] at e1
    subst e1
    exact ⟨sent, e3, e4⟩
  · obtain ⟨as, p, h1, h2, h3, h4, _⟩ := C135_exists (n := n) h0 hidle ht hl (said.map Spec.heard)
    exact ⟨as, p, h1, h2, h4, h3⟩

end

/-! ### Concrete cases -/

section
attribute [local instance] Ext.sample FloatText.sample Dbg.sample

/-- A handshake with a tester that then still listens and can still send. -/
theorem memStart (side : Side) : ∃ as p, MemSession.Steps side sampleHandler {} as p ∧ p.app = .idle ∧
    Spec.Talks side p ∧ Spec.Listens side p ∧ Spec.received side p = Spec.given side p := by
  obtain ⟨as, p, h1, h2, h3, h4, h5, h6⟩ := C84_exists side sampleHandler (Spec.session [] (.i32 1) sampleInit []) true
  obtain ⟨_, _, h7⟩ := mem_rest h1 h4 h3 h2
  have hfeed : ∀ ms, ms <+: Spec.session [] (.i32 1) sampleInit [] → ms ≠ Spec.session [] (.i32 1) sampleInit [] →
      ∀ r, (feed sampleHandler .start ms).1 ≠ .ended r := by
    intro ms hp hne r
    simp only [Spec.session, List.map_nil, List.nil_append] at hp hne
    match ms, hp with
    | [], _ => simp [feed]
    | [m], hp => simp at hp; subst hp; simp [feed, round, onRecv, sampleHandler, toSend, onSent]
    | [m, m'], hp => simp at hp; obtain ⟨rfl, rfl⟩ := hp; exact absurd rfl hne
    | _ :: _ :: _ :: _, hp => have := hp.length_le; simp at this
  have hall : (feed sampleHandler .start (Spec.session [] (.i32 1) sampleInit [])).1 = .idle := by
    rw [feed_session (v := .ofJson (.str "c")) (by simp) rfl (by simp [Spec.NoShutdown])]
  rcases h7 with ⟨r, h8, _⟩ | ⟨h8, h9, ⟨h10, h11⟩ | ⟨h10, _⟩⟩
  · exfalso
    by_cases he : Spec.received side p = Spec.session [] (.i32 1) sampleInit []
    · rw [he, hall] at h8; cases h8
    · exact hfeed _ (h6 ▸ (C84_sent h1).1) he r h8
  · exact ⟨as, p, h1, by rw [h11, h9, h6, hall], h10, h4, h9⟩
  · exact absurd (h5.2 rfl) h10

/-- Beside C135 (once, rest, exists, settles, hides): three workers and a tester that sends twelve requests before it
receives anything: they answer all of them, and still wait for more; over a connection with room for one byte each way a
client that does the same gets no answer. -/
example (side : Side) (kc ks : Transport.Kind) : ∃ as0 p0 as p, MemSession.Steps side sampleHandler {} as0 p0 ∧
    MemPool.Steps side (MemPool.start p0 3) as p ∧ MemPool.Quiet side p ∧ p.workers = List.replicate 3 .idle ∧
    (∃ sent, Spec.replied side p.main = Spec.replied side p0 ++ sent ∧
      Spec.AnyOrder (List.replicate 12 (.buildTargetSources (.i32 0) ⟨[]⟩)) sent) ∧
    (∀ as w, Desk.Dialog ⟨1, 1⟩ kc ks (asking 12) (fun _ _ => true) (deskStart 3) as w → w.client.gone = false →
      w.client.io.rxAlive = true → w.client.io.delivered = []) := by
  obtain ⟨as0, p0, h0, h1, h2, h3, h4⟩ := memStart side
  obtain ⟨a1, _, a6⟩ := C135_hides (n := 3) (said := asking 12) (c := ⟨1, 1⟩) h0 h1 h2 h3 h4 (by simp)
    (deskStart_staffed kc ks 3) .start (asking_ok 12) (by rw [asking_requests]; simp)
  obtain ⟨as, p, b1, b2, b3, b4, b5⟩ := C135_exists (n := 3) h0 h1 h2 h3 ((asking 12).map Spec.heard)
  obtain ⟨sent, c1, c2⟩ := a1 as p b1 b2 b4 b3
  rw [asking_requests] at c2
  obtain ⟨hpre, ds, _, _, _, hds, _⟩ := C135_once h0 h1 b1
  obtain ⟨_, _, _, _, _, _, d⟩ := C135_rest h0 h1 b1 b4 b2 (by simp) (by
    rw [hds, List.drop_left' rfl]
    rw [hds, b3, h4, List.prefix_append_right_inj] at hpre
    intro id hid
    obtain ⟨m, _, h⟩ := List.mem_map.1 (hpre.subset hid)
    exact heard_shutdown m id h)
  rcases d with ⟨_, d⟩ | ⟨d, _⟩
  · exact ⟨as0, p0, as, p, h0, b1, b2, d, ⟨sent, c1, c2⟩, a6⟩
  · exact absurd b5 d

/-- Beside C135_stay: three workers, and a tester that asks for something, for shutdown, and sends exit: at least two of
the workers go on waiting. -/
example (side : Side) : ∃ as0 p0 as p, MemSession.Steps side sampleHandler {} as0 p0 ∧
    MemPool.Steps side (MemPool.start p0 3) as p ∧ MemPool.Quiet side p ∧
    Spec.given side p.main = Spec.given side p0 ++ (samplePool ++ sampleLeave).map (·.2) ∧
    2 ≤ Spec.inTheLoop p.workers ∧ Spec.received side p.main = Spec.given side p.main := by
  obtain ⟨as0, p0, h0, h1, h2, h3, h4⟩ := memStart side
  obtain ⟨as, p, b1, b2, b3, b4, b5⟩ := C135_exists (n := 3) h0 h1 h2 h3 ((samplePool ++ sampleLeave).map (·.2))
  have hpre := (C135_once h0 h1 b1).1
  obtain ⟨ds, c1, c2, c3⟩ := C135_stay h0 h1 b1 b4 b5 b2
  have hle : Spec.askedToStop ds ≤ 1 := by
    rw [c1, b3, h4, List.prefix_append_right_inj] at hpre
    have : Spec.askedToStop ds ≤ Spec.askedToStop ((samplePool ++ sampleLeave).map (·.2)) := hpre.sublist.countP_le
    exact Nat.le_trans this (by decide +kernel)
  exact ⟨as0, p0, as, p, h0, b1, b2, b3, by omega, c3 (by omega)⟩

/-- Beside C135_never_waits: a worker has taken a request of the tester, and answers. -/
example (side : Side) : ∃ as0 p0 as p x, MemSession.Steps side sampleHandler {} as0 p0 ∧
    MemPool.Steps side (MemPool.start p0 2) as p ∧ p.workers = [x, .idle] ∧ (toSend x).isSome = true ∧
    ∃ q, MemPool.Step side p .main ⟨q, [.idle, .idle]⟩ := by
  obtain ⟨as0, p0, h0, h1, h2, h3, h4⟩ := memStart side
  let m : Message := .request (.workspaceReload (.str "a"))
  obtain ⟨as, p, b1, b2, b3, b4, b5, b6, b7, b8⟩ := memPool_told (n := 2) h0 h1 h2 [m]
  obtain ⟨_, c2, c3, c4⟩ := (outcome_cases p.main b6 side .recv).1 rfl
  have hne : Spec.received side p.main ≠ Spec.given side p.main := by rw [b2, b3, h4]; simp
  have ho : p.main.outcome side .recv = .received m := by
    rcases recv_outcome (side := side) b6 (by omega) with ⟨m', ho⟩ | ho | ho
    · have := c2 m' ho
      change Spec.received side p.main ++ [m'] <+: Spec.given side p.main at this
      rw [b2, b3, h4, List.prefix_append_right_inj] at this
      rw [ho]
      simpa using this
    · exact absurd (c3 ho).1 hne
    · exact absurd (c4 ho).1 hne
  have hp : p = ⟨p.main, [] ++ .idle :: [.idle]⟩ := by
    obtain ⟨main, l⟩ := p
    cases b8
    rfl
  have hst := MemPool.Step.recv (side := side) (a := []) (b := [.idle]) (x := .idle) rfl ho
  rw [← hp] at hst
  have hrun := MemPool.Steps.snoc b1 hst
  obtain ⟨ok, q, d1, d2⟩ := C135_never_waits h0 h1 hrun (a := []) (b := [.idle]) rfl rfl
  obtain ⟨_, _, e3⟩ := own_same (side := side) p.main .recv
  have hok : ok = true := d2.2 (by rw [e3]; exact b4.2 h3)
  subst hok
  exact ⟨as0, p0, _, _, _, h0, hrun, rfl, rfl, q, d1⟩

/-- Beside C135_same: one worker on `Connection::memory`, and a run of two on a real connection in which the second of two
requests is answered first: the same answers. -/
example (side : Side) (k : Transport.Kind) : ∃ as0 p0 as p bs q m1 m2 sent, MemSession.Steps side sampleHandler {} as0 p0 ∧
    MemPool.Steps side (MemPool.start p0 1) as p ∧ Spec.replied side p.main = Spec.replied side p0 ++ sent ∧
    Pool.Steps k (Pool.start {} 2) bs q ∧ q.io.accepted = [m2, m1] ∧ sent.Perm [m2, m1] := by
  obtain ⟨as0, p0, h0, h1, h2, h3, h4⟩ := memStart side
  obtain ⟨as, p, b1, b2, b3, b4, b5⟩ := C135_exists (n := 1) h0 h1 h2 h3 (samplePool.map (·.2))
  obtain ⟨bs, q, m1, m2, g1, g2, g3, g4, _, _, g5⟩ := C116_overtakes (k := k) (n := 0) resting_start
    (r1 := .workspaceBuildTargets (.i32 2)) (r2 := .workspaceReload (.str "a")) (by simp) (by simp) samplePool_carries.1
  have hr := pool_reachable g1 (reachable_start k)
  have hpre : q.io.delivered <+: samplePool.map (·.2) := by
    have := C51_prefix hr [] false
    rw [g4, List.append_assoc, List.append_nil] at this
    have e := readAll_carries samplePool_carries.1 [] false
    rw [List.append_nil] at e
    change q.io.delivered <+: (Frame.readAll (⟨framed samplePool, false⟩ : Frame.Flat)).1 at this
    rw [e] at this
    simpa [readAll_eq, (readMsg_nil).1] using this
  have hds : q.io.delivered = samplePool.map (·.2) := by
    obtain ⟨es, snt, served, other, e1, e2, e3, xs, e4, e5, _⟩ := C116_once (reachable_start k) rfl rfl g1
    have e6 : snt = [m2, m1] := by rw [g5] at e2; simpa using e2.symm
    have e7 : es = q.io.delivered := by simpa using e1.symm
    have e8 := e3.length_eq
    have e9 := e4.length_eq
    have e10 : (Spec.requests es).length ≤ es.length := by
      clear e1 e3 e7 e8
      induction es with
      | nil => simp [Spec.requests]
      | cons m es ih => cases m <;> simp [Spec.requests] <;> omega
    have e11 := congrArg List.length e5
    rw [e6] at e11
    simp only [List.length_append, List.length_map, List.length_cons, List.length_nil] at e8 e9 e11
    refine hpre.eq_of_length_le ?_
    rw [← e7]
    simp only [samplePool, List.map_cons, List.map_nil, List.length_cons, List.length_nil]
    omega
  obtain ⟨hp', es, snt, _, _, f1, f2, _⟩ := C135_once h0 h1 b1
  have hes : Spec.NoShutdown es := by
    rw [f1, b3, h4, List.prefix_append_right_inj] at hp'
    intro id hid
    have := hp'.subset hid
    simp [samplePool] at this
  obtain ⟨es', _, f3, f4, _⟩ := C135_rest h0 h1 b1 b4 b2 (by simp) (by rw [f1, List.drop_left' rfl]; exact hes)
  have hes' : es = samplePool.map (·.2) := by
    rw [f1, b3, h4, List.append_cancel_left_eq] at f4
    exact f4
  have hsame := C135_same h0 h1 b1 b4 b2 (by simp) f1 f2 hes (reachable_start k) rfl rfl
    (by cases k <;> simp [Transport.writeError]) g1 g2 g3 (ds' := q.io.delivered) (sent' := [m2, m1]) (by simp)
    g5 (by rw [hds, hes'])
  exact ⟨as0, p0, as, p, bs, q, m1, m2, snt, h0, b1, f2, g1, by simpa using g5, hsame⟩

end
end Bsp
