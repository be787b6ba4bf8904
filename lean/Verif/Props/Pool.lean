/-
C116-C117: workers that share a connection.
-/
import Verif.Pool
import Verif.Props.Session

namespace Bsp
open Conn Session Transport

section
variable [Ext]

/-! ### Specification -/

/-- The response to a request: for shutdown the result null, otherwise as in C63. -/
def Spec.IsAnswerTo (r : Request) (m : Message) : Prop :=
  match r with
  | .shutdown id => m = .response ⟨id, some Value.null, none⟩
  | r => Spec.IsReply r m

/-- One response for each request, in any order. -/
def Spec.AnyOrder (rs : List Request) (ms : List Message) : Prop :=
  ∃ xs : List (Request × Message), (xs.map (·.1)).Perm rs ∧ xs.map (·.2) = ms ∧ ∀ x ∈ xs, Spec.IsAnswerTo x.1 x.2

/-- Something comes after a request to shut down. -/
def Spec.AfterShutdown (ds : List Message) (m : Message) : Prop :=
  ∃ a id b, ds = a ++ .request (.shutdown id) :: b ∧ m ∈ b

/-! ### Lists -/

theorem reqs_append (a b : List Message) : Spec.requests (a ++ b) = Spec.requests a ++ Spec.requests b := by
  induction a with
  | nil => rfl
  | cons m a ih => cases m <;> simp [Spec.requests, ih]

omit [Ext] in
theorem perm_mid {α : Type} (a b c d : List α) (x : α) :
    (a ++ (b ++ x :: c) ++ d).Perm (x :: (a ++ (b ++ c) ++ d)) := by
  have : a ++ (b ++ x :: c) ++ d = (a ++ b) ++ x :: (c ++ d) := by simp
  rw [this]
  refine List.perm_middle.trans ?_
  simp

variable [Dbg]

/-- The answer of the loop to a request. -/
def answerTo : Request → Message
  | .shutdown id => .response (.ok id Value.null)
  | r => reply r

omit [Dbg] in
theorem isAnswerTo (r : Request) : Spec.IsAnswerTo r (answerTo r) := by
  cases r with
  | shutdown id => rfl
  | _ => unfold Spec.IsAnswerTo answerTo; exact isReply _

omit [Dbg] in
theorem anyOrder {rs rs' : List Request} {ms : List Message} (h1 : ms.Perm (rs'.map answerTo)) (h2 : rs'.Perm rs) :
    Spec.AnyOrder rs ms := by
  obtain ⟨l, hl, he⟩ : ∃ l : List Request, l.Perm rs' ∧ l.map answerTo = ms := by
    have key : ∀ {ms ms' : List Message}, ms.Perm ms' → ∀ l' : List Request, l'.map answerTo = ms' →
        ∃ l : List Request, l.Perm l' ∧ l.map answerTo = ms := by
      intro ms ms' h
      induction h with
      | nil => intro l' h; exact ⟨l', .refl _, h⟩
      | cons x _ ih =>
        intro l' h
        cases l' with
        | nil => cases h
        | cons y l' =>
          simp only [List.map_cons, List.cons.injEq] at h
          obtain ⟨l, h1, h2⟩ := ih l' h.2
          exact ⟨y :: l, h1.cons y, by simp [h.1, h2]⟩
      | swap x y l0 =>
        intro l' h
        match l', h with
        | u :: v :: l', h =>
          simp only [List.map_cons, List.cons.injEq] at h
          exact ⟨v :: u :: l', .swap _ _ _, by simp [h.1, h.2.1, h.2.2]⟩
      | trans _ _ ih1 ih2 =>
        intro l' h
        obtain ⟨l1, h1, h2⟩ := ih2 l' h
        obtain ⟨l2, h3, h4⟩ := ih1 l1 h2
        exact ⟨l2, h3.trans h1, h4⟩
    exact key h1 rs' rfl
  refine ⟨l.map fun r => (r, answerTo r), ?_, ?_, ?_⟩
  · simpa [Function.comp_def] using hl.trans h2
  · simpa [Function.comp_def] using he
  · simp only [List.mem_map]
    rintro _ ⟨r, _, rfl⟩
    exact isAnswerTo r

/-! ### The invariant -/

omit [Dbg] in
/-- A worker that has received a request to shut down or has ended with an error. -/
def rough : App → Bool
  | .stopping _ | .leaving => true
  | .ended (.ok _) => false
  | .ended _ => true
  | _ => false

omit [Dbg] in
/-- A worker in `handle_shutdown`. -/
def leaves : App → Bool
  | .stopping _ | .leaving => true
  | _ => false

omit [Dbg] in
/-- Where a worker can be. -/
def InLoop : App → Prop
  | .idle | .stopping _ | .leaving | .ended _ => True
  | .answering r => ∀ id, r ≠ .shutdown id
  | _ => False

omit [Dbg] in
def isShutdown : Request → Bool
  | .shutdown _ => true
  | _ => false

/-- What has been sent and what is about to be sent. -/
def owed (l : List App) : List Message := l.filterMap toSend

theorem owed_mid (a b : List App) (x : App) : owed (a ++ x :: b) = owed a ++ ((toSend x).toList ++ owed b) := by
  simp only [owed, List.filterMap_append, List.filterMap_cons]
  cases toSend x <;> simp

variable [FloatText] {k : Kind}

/-- Why a worker may have ended other than because the input is over. -/
def Bad (as : List Pool.Act) (ds failed : List Message) : Prop :=
  failed ≠ [] ∨ (Pool.Act.timeout ∈ as ∧ ∃ id, Message.request (.shutdown id) ∈ ds) ∨
    ∃ m, Spec.AfterShutdown ds m ∧ m ≠ .notification .exit

/-- The result of `handle_shutdown` when the reader has ended. -/
def disc : Out Unit := .err ("unexpected error during shutdown: " ++ Dbg.disconnected)

/-- The accounts of a pool. -/
structure Tally (k : Kind) (io : Transport.State) (as : List Pool.Act) (p : Pool.State)
    (ds sent : List Message) (served lost : List Request) (failed : List Message) : Prop where
  delivered : p.io.delivered = io.delivered ++ ds
  accepted : p.io.accepted = io.accepted ++ sent
  answered : (sent ++ owed p.workers ++ failed).Perm (served.map answerTo)
  received : (served ++ lost).Perm (Spec.requests ds)
  late : ∀ r ∈ lost, Spec.AfterShutdown ds (.request r)
  broken : failed ≠ [] → p.io.writer = writeError k
  asked : ∀ x ∈ p.workers, leaves x = true → ∃ id, Message.request (.shutdown id) ∈ ds
  few : p.workers.countP rough ≤ (Spec.requests ds).countP isShutdown + failed.length
  ends : ∀ r, App.ended r ∈ p.workers →
    (p.io.reader.ended = true ∧ Over p.io ∧ (r = .ok () ∨ r = disc)) ∨ Bad as ds failed

/-- What holds of a pool. -/
structure PoolInv (k : Kind) (io : Transport.State) (n : Nat) (as : List Pool.Act) (p : Pool.State) : Prop where
  reach : Reachable k p.io
  len : p.workers.length = n
  gone : p.io.rxAlive = false ∨ p.io.txAlive = false → ∀ x ∈ p.workers, ∃ r, x = .ended r
  inLoop : ∀ x ∈ p.workers, InLoop x
  tally : ∃ ds sent served lost failed, Tally k io as p ds sent served lost failed

omit [Dbg] [FloatText] in
theorem pool_kind {a : Transport.Act} {act : Pool.Act} (h : Pool.kindOf a = some act) :
    ∃ act', Session.kindOf a = some act' ∧ (act ≠ .writeFails → act' ≠ .writeFails) := by
  cases a <;> simp only [Pool.kindOf, Option.some.injEq, reduceCtorEq] at h <;> subst h <;>
    exact ⟨_, rfl, by simp⟩

omit [FloatText] [Dbg] in
theorem afterShutdown_mono {ds : List Message} {m : Message} (h : Spec.AfterShutdown ds m) (x : Message) :
    Spec.AfterShutdown (ds ++ [x]) m := by
  obtain ⟨a, id, b, rfl, h⟩ := h
  exact ⟨a, id, b ++ [x], by simp, List.mem_append_left _ h⟩

omit [Dbg] [FloatText] in
theorem afterShutdown_last {ds : List Message} {id : RequestId} (h : Message.request (.shutdown id) ∈ ds) (x : Message) :
    Spec.AfterShutdown (ds ++ [x]) x := by
  obtain ⟨a, b, rfl⟩ := List.append_of_mem h
  exact ⟨a, id, b ++ [x], by simp, by simp⟩

omit [FloatText] [Dbg] in
theorem shutdown_mem {ds : List Message} (h : 0 < (Spec.requests ds).countP isShutdown) :
    ∃ id, Message.request (.shutdown id) ∈ ds := by
  rw [List.countP_pos_iff] at h
  obtain ⟨r, h1, h2⟩ := h
  have : ∀ ds : List Message, r ∈ Spec.requests ds → Message.request r ∈ ds := by
    intro ds
    induction ds with
    | nil => intro h; cases h
    | cons m ds ih =>
      intro h
      cases m with
      | request q =>
        simp only [Spec.requests, List.mem_cons] at h
        rcases h with rfl | h
        · simp
        · exact List.mem_cons_of_mem _ (ih h)
      | _ => exact List.mem_cons_of_mem _ (ih h)
  cases r with
  | shutdown id => exact ⟨id, this ds h1⟩
  | _ => cases h2

omit [Ext] [Dbg] [FloatText] in
theorem mem_mid {α : Type} {a b : List α} {x y z : α} (h : z ∈ a ++ y :: b) : z = y ∨ z ∈ a ++ x :: b := by
  simp only [List.mem_append, List.mem_cons] at h ⊢
  rcases h with h | h | h
  · exact .inr (.inl h)
  · exact .inl h
  · exact .inr (.inr (.inr h))

omit [Dbg] [FloatText] in
theorem bad_mono {as : List Pool.Act} {ds failed ds' failed' : List Message} {x : Pool.Act} (h : Bad as ds failed)
    (h1 : ds' = ds ∨ ∃ m, ds' = ds ++ [m]) (h2 : failed ≠ [] → failed' ≠ []) : Bad (as ++ [x]) ds' failed' := by
  rcases h with h | ⟨h, id, hid⟩ | ⟨m, h, hm⟩
  · exact .inl (h2 h)
  · refine .inr (.inl ⟨List.mem_append_left _ h, id, ?_⟩)
    rcases h1 with rfl | ⟨y, rfl⟩
    · exact hid
    · exact List.mem_append_left _ hid
  · refine .inr (.inr ⟨m, ?_, hm⟩)
    rcases h1 with rfl | ⟨y, rfl⟩
    · exact h
    · exact afterShutdown_mono h y

omit [FloatText] in
/-- What a worker in the loop does with a message. -/
theorem recv_cases {x : App} (hx : InLoop x) (hr : x.receives = true) (m : Message) :
    (x = .idle ∧ ∃ id, m = .request (.shutdown id) ∧ Pool.onRecv x (some m) = .stopping id) ∨
    (x = .idle ∧ ∃ r, m = .request r ∧ (∀ id, r ≠ .shutdown id) ∧ Pool.onRecv x (some m) = .answering r) ∨
    (x = .idle ∧ (∀ r, m ≠ .request r) ∧ Pool.onRecv x (some m) = .idle) ∨
    (x = .leaving ∧ m = .notification .exit ∧ Pool.onRecv x (some m) = .ended (.ok ())) ∨
    (x = .leaving ∧ m ≠ .notification .exit ∧ ∃ e, Pool.onRecv x (some m) = .ended (.err e)) := by
  cases x <;> simp only [InLoop] at hx <;> simp [App.receives] at hr
  · cases m with
    | request r =>
      cases r with
      | shutdown id => exact .inl ⟨rfl, id, rfl, rfl⟩
      | _ => exact .inr (.inl ⟨rfl, _, rfl, by simp, rfl⟩)
    | response r => exact .inr (.inr (.inl ⟨rfl, by simp, rfl⟩))
    | notification n => exact .inr (.inr (.inl ⟨rfl, by simp, rfl⟩))
  · by_cases h : m = .notification .exit
    · subst h; exact .inr (.inr (.inr (.inl ⟨rfl, rfl, rfl⟩)))
    · refine .inr (.inr (.inr (.inr ⟨rfl, h, "unexpected message during shutdown: " ++ Dbg.msg m, ?_⟩)))
      unfold Pool.onRecv Session.onRecv
      split <;> simp_all

theorem poolInv {io : Transport.State} {n : Nat} {p : Pool.State} {as : List Pool.Act} (hio : Reachable k io)
    (hx : io.rxAlive = true) (ht : io.txAlive = true) (h : Pool.Steps k (Pool.start io n) as p) :
    PoolInv k io n as p := by
  generalize h0 : Pool.start io n = p0 at h
  induction h with
  | nil =>
    subst h0
    refine ⟨hio, by simp [Pool.start], by simp [Pool.start, hx, ht], ?_, [], [], [], [], [], ?_⟩
    · intro x h
      rw [List.eq_of_mem_replicate h]; trivial
    · have e1 : owed (Pool.start io n).workers = [] := by
        simp only [owed, Pool.start, List.filterMap_eq_nil_iff]
        intro x h
        rw [List.eq_of_mem_replicate h]; rfl
      have e2 : (Pool.start io n).workers.countP rough = 0 := by
        rw [List.countP_eq_zero]
        intro x h
        rw [List.eq_of_mem_replicate h]; simp [rough]
      refine ⟨by simp [Pool.start], by simp [Pool.start], by simp [e1], by simp [Spec.requests], by simp, by simp,
        ?_, by simp [e2], ?_⟩
      · intro x h h'
        rw [List.eq_of_mem_replicate h] at h'; cases h'
      · intro r h
        cases List.eq_of_mem_replicate h
  | @snoc as q act r h1 h2 ih =>
    obtain ⟨hr, hl, hg, hin, ds, sent, served, lost, failed, T⟩ := ih
    cases h2 with
    | io h3 h4 =>
      obtain ⟨act', h5, _⟩ := pool_kind h4
      obtain ⟨e1, e2, e3, e4, e5, e6, _⟩ := io_same h3 h5
      refine ⟨reachable_step hr h3, hl, by simpa only [e3, e4] using hg, hin, ds, sent, served, lost, failed,
        e1.trans T.delivered, e2.trans T.accepted, T.answered, T.received, T.late, fun h => e6 (T.broken h),
        T.asked, T.few, ?_⟩
      intro r h
      rcases T.ends r h with ⟨h6, h7, h8⟩ | h6
      · exact .inl ⟨e5 h6, over_io h3 h5 h7, h8⟩
      · exact .inr (bad_mono h6 (.inl rfl) _root_.id)
    | @recv q' io' a b x m h3 h4 =>
      have hxin := hin x (by simp)
      have halive : q'.rxAlive = true := by
        cases h5 : q'.rxAlive with
        | true => rfl
        | false => obtain ⟨r, h6⟩ := hg (.inl h5) x (by simp); subst h6; cases h3
      have hstep := h4
      cases h4 with
      | deliver _ h5 =>
      have notended : ∀ y ∈ a ++ x :: b, ∀ r, y = .ended r → Bad as ds failed := by
        intro y hy r hyr
        subst hyr
        rcases T.ends r hy with ⟨h7, _⟩ | h7
        · rw [h5] at h7; cases h7
        · exact h7
      have hgone : ∀ y : App, q'.rxAlive = false ∨ q'.txAlive = false → ∀ z ∈ a ++ y :: b, ∃ r, z = .ended r := by
        intro y h
        obtain ⟨r, h7⟩ := hg h x (by simp)
        subst h7; cases h3
      have hacc := T.answered
      have hrec := T.received
      have hfew := T.few
      simp only [owed_mid, receives_toSend h3, Option.toList_none, List.nil_append] at hacc
      simp only [List.countP_append, List.countP_cons] at hfew
      have hlen : ∀ y : App, (a ++ y :: b).length = n := by intro y; simpa using hl
      have build : ∀ (y : App) (served' lost' : List Request), Pool.onRecv x (some m) = y → InLoop y →
          ((sent ++ owed (a ++ y :: b) ++ failed).Perm (served'.map answerTo)) →
          ((served' ++ lost').Perm (Spec.requests (ds ++ [m]))) →
          (∀ r ∈ lost', Spec.AfterShutdown (ds ++ [m]) (.request r)) →
          ((a ++ y :: b).countP rough ≤ (Spec.requests (ds ++ [m])).countP isShutdown + failed.length) →
          (leaves y = true → ∃ id, Message.request (.shutdown id) ∈ ds ++ [m]) →
          (∀ r, y = .ended r → (afterSend m).ended = true ∧ Message.notification .exit ∈ q'.delivered ++ [m] ∧ r = .ok () ∨
            ∃ z, Spec.AfterShutdown (ds ++ [m]) z ∧ z ≠ .notification .exit) →
          PoolInv k io n (as ++ [.worker])
            ⟨{ q' with reader := afterSend m, delivered := q'.delivered ++ [m] }, a ++ Pool.onRecv x (some m) :: b⟩ := by
        intro y served' lost' hy h7 h8 h9 h10 h11 h16 h12
        rw [hy]
        refine ⟨reachable_step hr hstep, hlen y, hgone y, ?_, ds ++ [m], sent, served', lost', failed,
          (congrArg (· ++ [m]) T.delivered).trans (by simp), T.accepted, h8, h9, h10, T.broken, ?_, h11, ?_⟩
        · intro z hz
          rcases mem_mid (x := x) hz with rfl | hz
          · exact h7
          · exact hin z hz
        · intro z hz hlv
          rcases mem_mid (x := x) hz with rfl | hz
          · exact h16 hlv
          · obtain ⟨id, h⟩ := T.asked z hz hlv
            exact ⟨id, List.mem_append_left _ h⟩
        · intro r hz
          rcases mem_mid (x := x) hz with hz | hz
          · rcases h12 r hz.symm with ⟨h13, h14, h15⟩ | h13
            · exact .inl ⟨h13, .inl h14, .inl h15⟩
            · exact .inr (.inr (.inr h13))
          · exact .inr (bad_mono (notended _ hz r rfl) (.inr ⟨m, rfl⟩) _root_.id)
      have hadd : ∀ r, m = .request r → Spec.requests (ds ++ [m]) = Spec.requests ds ++ [r] := by
        intro r h; subst h; simp [reqs_append, Spec.requests]
      have hkeep : (∀ r, m ≠ .request r) → Spec.requests (ds ++ [m]) = Spec.requests ds := by
        intro h
        cases m with
        | request r => exact absurd rfl (h r)
        | _ => simp [reqs_append, Spec.requests]
      have hlate : ∀ r ∈ lost, Spec.AfterShutdown (ds ++ [m]) (.request r) := fun r h => afterShutdown_mono (T.late r h) m
      have serve : ∀ (y : App) (r : Request), m = .request r → toSend y = some (answerTo r) →
          (sent ++ owed (a ++ y :: b) ++ failed).Perm ((r :: served).map answerTo) := by
        intro y r _ hy
        rw [owed_mid, hy]
        simp only [Option.toList_some, List.cons_append, List.nil_append, List.map_cons]
        exact (perm_mid ..).trans (hacc.cons _)
      have serve' : ∀ r, m = .request r → ((r :: served) ++ lost).Perm (Spec.requests (ds ++ [m])) := by
        intro r h
        rw [hadd r h]
        refine (List.Perm.cons r hrec).trans ?_
        exact (List.perm_append_singleton r _).symm
      have quiet : ∀ y : App, toSend y = none → (sent ++ owed (a ++ y :: b) ++ failed).Perm (served.map answerTo) := by
        intro y hy
        rw [owed_mid, hy]
        simpa using hacc
      rcases recv_cases hxin h3 m with ⟨rfl, id, hm, hy⟩ | ⟨rfl, r, hm, hns, hy⟩ | ⟨rfl, hm, hy⟩ | ⟨rfl, hm, hy⟩ | ⟨rfl, hm, e, hy⟩
      · refine build _ (.shutdown id :: served) lost hy trivial (serve _ _ hm rfl) (serve' _ hm) hlate ?_
          (fun _ => ⟨id, by simp [hm]⟩) (by simp)
        rw [hadd _ hm]
        simp only [List.countP_append, List.countP_cons, List.countP_nil, rough, isShutdown] at hfew ⊢
        simp at hfew ⊢
        omega
      · have hat : answerTo r = reply r := by
          cases r with
          | shutdown id => exact absurd rfl (hns id)
          | _ => rfl
        refine build _ (r :: served) lost hy hns (serve _ _ hm (by rw [hat]; rfl)) (serve' _ hm) hlate ?_
          (by simp [leaves]) (by simp)
        rw [hadd _ hm]
        simp only [List.countP_append, List.countP_cons, List.countP_nil, rough] at hfew ⊢
        simp at hfew ⊢
        omega
      · refine build _ served lost hy trivial (quiet _ rfl) (by rw [hkeep hm]; exact hrec) hlate ?_
          (by simp [leaves]) (by simp)
        rw [hkeep hm]
        simp only [List.countP_append, List.countP_cons, rough] at hfew ⊢
        exact hfew
      · refine build _ served lost hy trivial (quiet _ rfl) (by rw [hkeep (by simp [hm])]; exact hrec) hlate ?_
          (by simp [leaves]) ?_
        · rw [hkeep (by simp [hm])]
          simp only [List.countP_append, List.countP_cons, rough] at hfew ⊢
          simp at hfew ⊢
          omega
        · intro r h
          cases h
          exact .inl ⟨by rw [hm]; rfl, by simp [hm], rfl⟩
      · obtain ⟨id, hsd⟩ := T.asked .leaving (by simp) rfl
        have hlast := afterShutdown_last hsd m
        have hc : (a ++ App.ended (.err e) :: b).countP rough ≤
            (Spec.requests (ds ++ [m])).countP isShutdown + failed.length := by
          simp only [reqs_append, List.countP_append, List.countP_cons, rough] at hfew ⊢
          omega
        have hbad : ∀ r, App.ended (.err e) = .ended r →
            (afterSend m).ended = true ∧ Message.notification .exit ∈ q'.delivered ++ [m] ∧ r = .ok () ∨
            ∃ z, Spec.AfterShutdown (ds ++ [m]) z ∧ z ≠ .notification .exit := fun r _ => .inr ⟨m, hlast, hm⟩
        by_cases hreq : ∃ r, m = .request r
        · obtain ⟨r, hreq⟩ := hreq
          refine build _ served (lost ++ [r]) hy trivial (quiet _ rfl) ?_ ?_ hc (by simp [leaves]) hbad
          · rw [hadd _ hreq, ← List.append_assoc]
            exact hrec.append_right _
          · intro r' h
            rcases List.mem_append.1 h with h | h
            · exact hlate r' h
            · simp only [List.mem_singleton] at h
              subst h
              rw [← hreq]
              exact hlast
        · have hreq : ∀ r, m ≠ .request r := fun r h => hreq ⟨r, h⟩
          exact build _ served lost hy trivial (quiet _ rfl) (by rw [hkeep hreq]; exact hrec) hlate hc (by simp [leaves])
            hbad
    | @closed q' a b x h3 h4 =>
      have hxin := hin x (by simp)
      have halive : q'.rxAlive = true := by
        cases h5 : q'.rxAlive with
        | true => rfl
        | false => obtain ⟨r, h6⟩ := hg (.inl h5) x (by simp); subst h6; cases h3
      have hover := over_closed hr h4 halive
      have hy : ∃ r, Pool.onRecv x none = .ended r ∧ (r = .ok () ∨ r = disc) ∧
          rough (Pool.onRecv x none) = rough x := by
        cases x <;> simp only [InLoop] at hxin <;> simp [App.receives] at h3
        · exact ⟨_, rfl, .inl rfl, rfl⟩
        · exact ⟨_, rfl, .inr rfl, rfl⟩
      obtain ⟨r, hy, hrr, hro⟩ := hy
      have hacc := T.answered
      have hfew := T.few
      simp only [owed_mid, receives_toSend h3, Option.toList_none, List.nil_append] at hacc
      simp only [List.countP_append, List.countP_cons, ← hro] at hfew
      rw [hy] at hfew ⊢
      refine ⟨hr, by simpa using hl, ?_, ?_, ds, sent, served, lost, failed, T.delivered, T.accepted, ?_, T.received,
        T.late, T.broken, ?_, ?_, ?_⟩
      · intro h
        obtain ⟨r, h7⟩ := hg h x (by simp)
        subst h7; cases h3
      · intro z hz
        rcases mem_mid (x := x) hz with rfl | hz
        · trivial
        · exact hin z hz
      · simp only [owed_mid, toSend_ended, Option.toList_none, List.nil_append]
        exact hacc
      · intro z hz hlv
        rcases mem_mid (x := x) hz with rfl | hz
        · cases hlv
        · exact T.asked z hz hlv
      · simpa only [List.countP_append, List.countP_cons] using hfew
      · intro r' hz
        rcases mem_mid (x := x) hz with hz | hz
        · cases hz
          exact .inl ⟨h4, hover, hrr⟩
        · rcases T.ends r' hz with h7 | h7
          · exact .inl h7
          · exact .inr (bad_mono h7 (.inl rfl) _root_.id)
    | @send q' io' a b x m h3 h4 =>
      have hxin := hin x (by simp)
      have hstep := h4
      cases h4 with
      | accept _ h5 h6 =>
      have hf : failed = [] := by
        cases hfl : failed with
        | nil => rfl
        | cons y l =>
          have := T.broken (by simp [hfl])
          simp only at this
          rw [h5] at this; cases k <;> cases this
      subst hf
      have hy : onSent x true = .idle ∧ leaves x = false ∨ onSent x true = .leaving ∧ leaves x = true := by
        cases x <;> simp only [InLoop] at hxin <;> simp [toSend] at h3
        · exact .inl ⟨rfl, rfl⟩
        · exact .inr ⟨rfl, rfl⟩
      have hro : rough (onSent x true) = rough x := by
        cases x <;> simp only [InLoop] at hxin <;> simp [toSend] at h3 <;> rfl
      have hacc := T.answered
      have hfew := T.few
      simp only [owed_mid, h3, Option.toList_some, List.cons_append, List.nil_append] at hacc
      simp only [List.countP_append, List.countP_cons, ← hro] at hfew
      refine ⟨reachable_step hr hstep, by simpa using hl, ?_, ?_, ds, sent ++ [m], served, lost, [], T.delivered,
        (congrArg (· ++ [m]) T.accepted).trans (by simp), ?_, T.received, T.late, by simp, ?_, ?_, ?_⟩
      · intro h
        obtain ⟨r, h7⟩ := hg h x (by simp)
        subst h7; cases h3
      · intro z hz
        rcases mem_mid (x := x) hz with rfl | hz
        · rcases hy with hy | hy <;> rw [hy.1] <;> trivial
        · exact hin z hz
      · rw [owed_mid, onSent_toSend h3]
        refine .trans ?_ hacc
        refine .trans ?_ (perm_mid ..).symm
        simp only [List.append_assoc, Option.toList_none, List.nil_append, List.cons_append]
        exact List.perm_middle
      · intro z hz hlv
        rcases mem_mid (x := x) hz with rfl | hz
        · refine T.asked x (by simp) ?_
          rcases hy with hy | hy
          · rw [hy.1] at hlv; cases hlv
          · exact hy.2
        · exact T.asked z hz hlv
      · simpa only [List.countP_append, List.countP_cons] using hfew
      · intro r' hz
        rcases mem_mid (x := x) hz with hz | hz
        · rcases hy with hy | hy <;> rw [hy.1] at hz <;> cases hz
        · rcases T.ends r' hz with ⟨h7, h8, h9⟩ | h7
          · exact .inl ⟨h7, over_same h8 rfl rfl rfl, h9⟩
          · exact .inr (bad_mono h7 (.inl rfl) _root_.id)
    | @unsent q' a b x m h3 h4 =>
      have hxin := hin x (by simp)
      have halive : q'.txAlive = true := by
        cases h5 : q'.txAlive with
        | true => rfl
        | false => obtain ⟨r, h6⟩ := hg (.inr h5) x (by simp); subst h6; cases h3
      have hro : (if rough (onSent x false) = true then 1 else 0) ≤ (if rough x = true then 1 else 0) + 1 := by
        split <;> omega
      have hacc := T.answered
      have hfew := T.few
      simp only [owed_mid, h3, Option.toList_some, List.cons_append, List.nil_append] at hacc
      simp only [List.countP_append, List.countP_cons] at hfew
      have hns : toSend (onSent x false) = none := by
        cases x <;> simp [toSend] at h3 <;> rfl
      refine ⟨hr, by simpa using hl, ?_, ?_, ds, sent, served, lost, m :: failed, T.delivered, T.accepted, ?_, T.received,
        T.late, fun _ => C54_alive hr halive h4, ?_, ?_, ?_⟩
      · intro h
        obtain ⟨r, h7⟩ := hg h x (by simp)
        subst h7; cases h3
      · intro z hz
        rcases mem_mid (x := x) hz with rfl | hz
        · cases x <;> simp only [InLoop] at hxin <;> simp [toSend] at h3 <;> trivial
        · exact hin z hz
      · rw [owed_mid, hns]
        refine .trans ?_ hacc
        refine .trans ?_ (perm_mid ..).symm
        simp only [Option.toList_none, List.nil_append]
        exact List.perm_middle
      · intro z hz hlv
        rcases mem_mid (x := x) hz with rfl | hz
        · refine T.asked x (by simp) ?_
          cases x <;> simp only [InLoop] at hxin <;> simp [toSend] at h3
          · cases hlv
          · rfl
        · exact T.asked z hz hlv
      · simp only [List.countP_append, List.countP_cons, List.length_cons] at hfew ⊢
        omega
      · intro r' hz
        exact .inr (.inl (by simp))
    | @timeout q' a b =>
      have hacc := T.answered
      have hfew := T.few
      refine ⟨hr, by simpa using hl, ?_, ?_, ds, sent, served, lost, failed, T.delivered, T.accepted, ?_, T.received,
        T.late, T.broken, ?_, ?_, ?_⟩
      · intro h
        obtain ⟨r, h7⟩ := hg h .leaving (by simp)
        cases h7
      · intro z hz
        rcases mem_mid (x := .leaving) hz with rfl | hz
        · trivial
        · exact hin z hz
      · simpa only [owed_mid, toSend_ended, toSend_leaving] using hacc
      · intro z hz hlv
        rcases mem_mid (x := .leaving) hz with rfl | hz
        · cases hlv
        · exact T.asked z hz hlv
      · simpa only [List.countP_append, List.countP_cons, rough] using hfew
      · intro r' hz
        exact .inr (.inr (.inl ⟨by simp, T.asked .leaving (by simp) rfl⟩))
    | dropRx h3 h4 =>
      refine ⟨reachable_step hr (.dropRx _), hl, fun _ => h3, hin, ds, sent, served, lost, failed, T.delivered, T.accepted,
        T.answered, T.received, T.late, T.broken, T.asked, T.few, ?_⟩
      intro r h
      rcases T.ends r h with ⟨h6, h7, h8⟩ | h6
      · exact .inl ⟨h6, over_same h7 rfl rfl rfl, h8⟩
      · exact .inr (bad_mono h6 (.inl rfl) _root_.id)
    | dropTx h3 h4 =>
      refine ⟨reachable_step hr (.dropTx _), hl, fun _ => h3, hin, ds, sent, served, lost, failed, T.delivered, T.accepted,
        T.answered, T.received, T.late, T.broken, T.asked, T.few, ?_⟩
      intro r h
      rcases T.ends r h with ⟨h6, h7, h8⟩ | h6
      · exact .inl ⟨h6, over_same h7 rfl rfl rfl, h8⟩
      · exact .inr (bad_mono h6 (.inl rfl) _root_.id)

theorem pool_reachable {p q : Pool.State} {as : List Pool.Act} (h : Pool.Steps k p as q) (hp : Reachable k p.io) :
    Reachable k q.io := by
  induction h with
  | nil => exact hp
  | snoc _ h2 ih =>
    cases h2 with
    | io hs _ => exact reachable_step ih hs
    | recv _ hs => exact reachable_step ih hs
    | send _ hs => exact reachable_step ih hs
    | dropRx _ _ => exact reachable_step ih (.dropRx _)
    | dropTx _ _ => exact reachable_step ih (.dropTx _)
    | _ => exact ih

theorem pool_no_fail {p q : Pool.State} {as : List Pool.Act} (h : Pool.Steps k p as q) (hw : Pool.Act.writeFails ∉ as)
    (hp : p.io.writer ≠ writeError k) : q.io.writer ≠ writeError k := by
  induction h with
  | nil => exact hp
  | snoc h1 h2 ih =>
    simp only [List.mem_append, List.mem_singleton, not_or] at hw
    have hq := ih hw.1
    cases h2 with
    | io h3 h4 =>
      obtain ⟨act', h5, h6⟩ := pool_kind h4
      exact fun h => hq ((io_same h3 h5).2.2.2.2.2.2 (h6 (fun e => hw.2 e.symm)) h)
    | recv _ hs => cases hs with | deliver _ _ => exact hq
    | send _ hs => cases hs with | accept _ _ _ => intro h; cases k <;> cases h
    | _ => exact hq

/-- C116: whatever the order in which reader, writer and workers take their steps, and even if writes fail: what the
workers have sent are answers to requests they have received, each to a different one. -/
theorem C116_once {io : Transport.State} {n : Nat} {p : Pool.State} {as : List Pool.Act} (hio : Reachable k io)
    (hx : io.rxAlive = true) (ht : io.txAlive = true) (h : Pool.Steps k (Pool.start io n) as p) :
    ∃ ds sent served other, p.io.delivered = io.delivered ++ ds ∧ p.io.accepted = io.accepted ++ sent ∧
      (served ++ other).Perm (Spec.requests ds) ∧ Spec.AnyOrder served sent := by
  obtain ⟨_, _, _, _, ds, sent, served, lost, failed, T⟩ := poolInv hio hx ht h
  obtain ⟨xs, h1, h2, h3⟩ := anyOrder T.answered (.refl _)
  have e : xs = xs.take sent.length ++ xs.drop sent.length := (List.take_append_drop ..).symm
  refine ⟨ds, sent, (xs.take sent.length).map (·.1), (xs.drop sent.length).map (·.1) ++ lost, T.delivered, T.accepted,
    ?_, xs.take sent.length, .refl _, ?_, ?_⟩
  · rw [← List.append_assoc, ← List.map_append, ← e]
    exact (h1.append_right _).trans T.received
  · rw [List.map_take, h2, List.append_assoc, List.take_left']
    rfl
  · exact fun x hx => h3 x (List.mem_of_mem_take hx)

/-- What can be said of a pool at rest. -/
theorem pool_rest {io : Transport.State} {n : Nat} {p : Pool.State} {as : List Pool.Act} (hi : PoolInv k io n as p)
    (hw : p.io.writer ≠ writeError k) (hq : Pool.Quiet k p) :
    owed p.workers = [] ∧ p.io.out = p.io.accepted.flatMap Frame.write ∧
    ((∃ x ∈ p.workers, x.receives = true) → p.io.reader = .reading ∧ p.io.inEnd = none ∧
      ∀ bs ms rest, p.io.arrived = bs ++ rest → Spec.Carries bs ms → ms <+: p.io.delivered) ∧
    ((¬ ∃ x ∈ p.workers, x.receives = true) → (∀ x ∈ p.workers, ∃ r, x = .ended r) ∧ p.io.writer = .done) := by
  obtain ⟨hr, hl, hg, hin, _⟩ := hi
  have hwi := writeInv hr
  have no_thread : ∀ {a s'}, Transport.Step k p.io a s' → Pool.kindOf a = some .thread → False := by
    intro a s' h1 h2
    rcases hq _ _ (.io h1 h2) with h | h <;> cases h
  have hidle : p.io.writer = .idle ∨ p.io.writer = .done := by
    cases hwr : p.io.writer with
    | idle => exact .inl rfl
    | done => exact .inr rfl
    | writing rest =>
      cases rest with
      | nil => exact (no_thread (.written _ hwr) rfl).elim
      | cons y rest => exact (no_thread (.write _ [y] rest hwr (by simp)) rfl).elim
    | failed => simp only [WriteInv, hwr] at hwi; rw [hwr, hwi.1] at hw; exact absurd rfl hw
    | panicked => simp only [WriteInv, hwr] at hwi; rw [hwr, hwi.1] at hw; exact absurd rfl hw
  have halive : (∃ x ∈ p.workers, ∀ r, x ≠ .ended r) → p.io.rxAlive = true ∧ p.io.txAlive = true := by
    rintro ⟨x, hx, hn⟩
    constructor
    · cases h1 : p.io.rxAlive with
      | true => rfl
      | false => obtain ⟨r, h⟩ := hg (.inl h1) x hx; exact absurd h (hn r)
    · cases h1 : p.io.txAlive with
      | true => rfl
      | false => obtain ⟨r, h⟩ := hg (.inr h1) x hx; exact absurd h (hn r)
  have hnosend : ∀ x ∈ p.workers, toSend x = none := by
    intro x hx
    cases hs : toSend x with
    | none => rfl
    | some m =>
      exfalso
      have ha := halive ⟨x, hx, by intro r h; subst h; cases hs⟩
      have hi : p.io.writer = .idle := by
        rcases hidle with h | h
        · exact h
        · rw [(C54_drained hr h).1] at ha; cases ha.2
      obtain ⟨a, b, hab⟩ := List.append_of_mem hx
      have hp : p = ⟨p.io, a ++ x :: b⟩ := by rw [← hab]
      have := hq .worker ⟨_, a ++ onSent x true :: b⟩ (by rw [hp]; exact .send hs (.accept _ m hi ha.2))
      rcases this with h | h <;> cases h
  refine ⟨List.filterMap_eq_nil_iff.2 hnosend, ?_, ?_, ?_⟩
  · rcases hidle with h | h
    · simp only [WriteInv, h] at hwi; exact hwi
    · exact (C54_drained hr h).2
  · rintro ⟨x, hx, hrec⟩
    have hrx := (halive ⟨x, hx, by intro r h; subst h; cases hrec⟩).1
    obtain ⟨a, b, hab⟩ := List.append_of_mem hx
    have hp : p = ⟨p.io, a ++ x :: b⟩ := by rw [← hab]
    have hread : p.io.reader = .reading := by
      have closed : p.io.reader.ended = true → False := by
        intro h1
        have := hq .worker ⟨p.io, a ++ Pool.onRecv x none :: b⟩ (by rw [hp]; exact .closed hrec h1)
        rcases this with h | h <;> cases h
      cases hrd : p.io.reader with
      | reading => rfl
      | sending m =>
        have := hq .worker ⟨_, a ++ Pool.onRecv x (some m) :: b⟩ (by rw [hp]; exact .recv hrec (.deliver _ m hrd hrx))
        rcases this with h | h <;> cases h
      | _ => exact (closed (by rw [hrd]; rfl)).elim
    have hno : ¬ ∃ s', Transport.Step k p.io .read s' := fun ⟨s', h1⟩ => no_thread h1 rfl
    have hie : p.io.inEnd = none := by
      cases he : p.io.inEnd with
      | none => rfl
      | some b =>
        exact absurd ⟨_, .read _ (Frame.readMsg (⟨p.io.unread, b⟩ : Frame.Flat)) hread (by simp [Settled, he])⟩ hno
    refine ⟨hread, hie, ?_⟩
    intro bs ms rest hb hc
    obtain ⟨⟨used, ps, hu, hp, hc'⟩, _, _⟩ := (readInv hr).1
    simp only [Spec.Pending, hread] at hp
    subst hp
    rw [List.append_nil] at hc'
    have e1 := readAll_carries hc rest false
    rw [← hb, hu, readAll_carries hc', nothing_whole hread hno] at e1
    simp only [List.append_nil, Prod.mk.injEq] at e1
    rw [e1.1]
    exact List.prefix_append _ _
  · intro hn
    have hend : ∀ x ∈ p.workers, ∃ r, x = .ended r := by
      intro x hx
      rcases rests (hnosend x hx) with h | h
      · exact absurd ⟨x, hx, h⟩ hn
      · exact h
    refine ⟨hend, ?_⟩
    have htx : p.io.txAlive = false := by
      cases h1 : p.io.txAlive with
      | false => rfl
      | true => rcases hq _ _ (.dropTx hend h1) with h | h <;> cases h
    rcases hidle with h1 | h1
    · exact (no_thread (.close _ h1 htx) rfl).elim
    · exact h1

omit [FloatText] [Dbg] in
theorem no_shutdown_count {ds : List Message} (h : Spec.NoShutdown ds) : (Spec.requests ds).countP isShutdown = 0 := by
  rcases Nat.eq_zero_or_pos ((Spec.requests ds).countP isShutdown) with h1 | h1
  · exact h1
  · obtain ⟨id, h2⟩ := shutdown_mem h1
    exact absurd h2 (h id)

omit [FloatText] in
/-- Without shutdown and failures the workers are all at work or have all ended well. -/
theorem smooth {l : List App} (h1 : ∀ x ∈ l, InLoop x) (h2 : l.countP rough = 0) (h3 : owed l = []) :
    ∀ x ∈ l, x = .idle ∨ x = .ended (.ok ()) := by
  intro x hx
  have h4 := h1 x hx
  have h5 := List.filterMap_eq_nil_iff.1 h3 x hx
  have h6 := List.countP_eq_zero.1 h2 x hx
  cases x with
  | ended r =>
    cases r with
    | ok u => exact .inr rfl
    | _ => exact absurd rfl h6
  | idle => exact .inl rfl
  | leaving => exact absurd rfl h6
  | _ => first | (cases h5; done) | exact h4.elim

/-- C116: `n` workers enter the loop on a connection.  When no write fails and nothing more can happen by itself, and
no request to shut down has come, every request the workers have received has been answered once, and the answers have
been written; either all workers wait for input, of which they have received all that has come in full, or all have
ended well, the input is over, and so are the reader and the writer. -/
theorem C116_rest {io : Transport.State} {n : Nat} {p : Pool.State} {as : List Pool.Act} (hio : Reachable k io)
    (hx : io.rxAlive = true) (ht : io.txAlive = true) (hw : io.writer ≠ writeError k) (hn : 0 < n)
    (h : Pool.Steps k (Pool.start io n) as p) (ha : Pool.Act.writeFails ∉ as) (hq : Pool.Quiet k p)
    (hs : Spec.NoShutdown (p.io.delivered.drop io.delivered.length)) :
    ∃ ds sent, p.io.delivered = io.delivered ++ ds ∧ p.io.accepted = io.accepted ++ sent ∧
      Spec.AnyOrder (Spec.requests ds) sent ∧ p.io.out = p.io.accepted.flatMap Frame.write ∧
      ((p.workers = List.replicate n .idle ∧ p.io.inEnd = none ∧
          ∀ bs ms rest, p.io.arrived = bs ++ rest → Spec.Carries bs ms → ms <+: p.io.delivered) ∨
       (p.workers = List.replicate n (.ended (.ok ())) ∧ join k p.io ≠ .waiting ∧
          (Message.notification .exit ∈ p.io.delivered ∨ ∃ stop, Spec.Input p.io p.io.delivered stop))) := by
  have hi := poolInv hio hx ht h
  have hne := pool_no_fail h ha hw
  obtain ⟨ho, hout, hrecv, hend⟩ := pool_rest hi hne hq
  obtain ⟨hr, hl, hg, hin, ds, sent, served, lost, failed, T⟩ := hi
  have hf : failed = [] := by
    cases hfl : failed with
    | nil => rfl
    | cons y l => exact absurd (T.broken (by simp [hfl])) hne
  subst hf
  rw [T.delivered, List.drop_left' rfl] at hs
  have hlost : lost = [] := by
    cases hll : lost with
    | nil => rfl
    | cons r l =>
      obtain ⟨a, id, b, h1, _⟩ := T.late r (by simp [hll])
      exact absurd (h1 ▸ by simp) (hs id)
  subst hlost
  have hsm := smooth hin (by have := T.few; rw [no_shutdown_count hs] at this; simpa using this) ho
  have hacc := T.answered
  rw [ho] at hacc
  have hne0 : p.workers ≠ [] := by intro h; rw [h] at hl; simp at hl; omega
  refine ⟨ds, sent, T.delivered, T.accepted, anyOrder (by simpa using hacc) (by simpa using T.received), hout, ?_⟩
  have hends : ∀ r, App.ended r ∈ p.workers → p.io.reader.ended = true ∧ Over p.io := by
    intro r h
    rcases T.ends r h with ⟨h1, h2, _⟩ | h1 | ⟨_, id, h1⟩ | ⟨m, ⟨a, id, b, h1, _⟩, _⟩
    · exact ⟨h1, h2⟩
    · exact absurd rfl h1
    · exact absurd h1 (hs id)
    · exact absurd (h1 ▸ by simp) (hs id)
  by_cases hrc : ∃ x ∈ p.workers, x.receives = true
  · obtain ⟨h1, h2, h3⟩ := hrecv hrc
    refine .inl ⟨?_, h2, h3⟩
    rw [← hl]
    refine List.eq_replicate_of_mem ?_
    intro x hx
    rcases hsm x hx with h4 | h4
    · exact h4
    · rw [h4] at hx
      have := (hends _ hx).1
      rw [h1] at this
      cases this
  · obtain ⟨h1, h2⟩ := hend hrc
    have hall : ∀ x ∈ p.workers, x = .ended (.ok ()) := by
      intro x hx
      rcases hsm x hx with h4 | h4
      · obtain ⟨r, h5⟩ := h1 x hx
        rw [h4] at h5; cases h5
      · exact h4
    obtain ⟨x, hxm⟩ := List.exists_mem_of_ne_nil _ hne0
    obtain ⟨h5, h6⟩ := hends (.ok ()) (hall x hxm ▸ hxm)
    refine .inr ⟨?_, ?_, h6⟩
    · rw [← hl]
      exact List.eq_replicate_of_mem hall
    · unfold join
      rw [h2]
      cases hrd : p.io.reader with
      | reading => rw [hrd] at h5; cases h5
      | sending m => rw [hrd] at h5; cases h5
      | done => simp
      | failed => simp
      | panicked => simp [Writer.ended]

/-! ### Every run comes to rest -/

/-- What a worker has left to do before it needs a message. -/
def workerWork : App → Nat
  | .start | .confirming | .idle | .leaving => 1
  | .refusing _ | .replying _ _ | .answering _ | .stopping _ => 2
  | .ended _ => 0

/-- What is left to be done, in two parts: with what has been read and received; with what is to be written. -/
def poolWork (p : Pool.State) : Nat × Nat :=
  (10 * p.io.unread.length +
    (match p.io.reader with | .reading => 3 | .sending _ => 6 | _ => 0) +
    (p.workers.map workerWork).sum + p.io.rxAlive.toNat + p.io.txAlive.toNat,
   workLeft p.io.writer)

theorem poolWork_decreases {p q : Pool.State} {a : Pool.Act} (h : Pool.Step k p a q) (ha : a ≠ .peer) :
    Prod.Lex (· < ·) (· < ·) (poolWork q) (poolWork p) := by
  cases h with
  | io h2 h3 =>
    cases h2 with
    | arrive bs _ => simp [Pool.kindOf] at h3; exact absurd h3.symm ha
    | hangUp b _ => simp [Pool.kindOf] at h3; exact absurd h3.symm ha
    | read r hr hs =>
      left
      cases r with
      | item m rest =>
        obtain ⟨f, cs, j, hf, _, _, _, hu⟩ := settled_item hs
        have := frame_nonempty hf
        simp only [afterRead, hr, hu, List.length_append]
        omega
      | _ => cases k <;> simp only [afterRead, readError, hr] <;> omega
    | deliver m _ _ => simp [Pool.kindOf] at h3
    | undeliverable m hr _ => left; simp only [hr]; omega
    | dropRx => simp [Pool.kindOf] at h3
    | accept m _ _ => simp [Pool.kindOf] at h3
    | write a b hw hne =>
      have : 0 < a.length := by cases a <;> simp_all
      refine (Prod.lex_def).2 (.inr ⟨rfl, ?_⟩)
      simp only [poolWork, workLeft, hw, List.length_append]
      omega
    | written hw =>
      refine (Prod.lex_def).2 (.inr ⟨rfl, ?_⟩)
      simp [poolWork, workLeft, hw]
    | writeFails b hw =>
      refine (Prod.lex_def).2 (.inr ⟨rfl, ?_⟩)
      cases k <;> simp [poolWork, workLeft, hw, writeError]
    | dropTx => simp [Pool.kindOf] at h3
    | close hw _ =>
      refine (Prod.lex_def).2 (.inr ⟨rfl, ?_⟩)
      simp [poolWork, workLeft, hw]
  | @recv q' io' a b x m h2 h3 =>
    cases h3 with
    | deliver hx hr =>
      left
      simp only [hr, afterSend, List.map_append, List.map_cons, List.sum_append, List.sum_cons]
      generalize Pool.onRecv x (some m) = y
      cases x <;> simp [App.receives] at h2 <;> cases y <;> cases isExit m <;> simp [workerWork] <;> omega
  | @closed q' a b x h2 h3 =>
    left
    obtain ⟨r, h4⟩ : ∃ r, Pool.onRecv x none = .ended r := onRecv_none h2
    simp only [h4, List.map_append, List.map_cons, List.sum_append, List.sum_cons]
    cases x <;> simp [App.receives] at h2 <;> simp [workerWork] <;> omega
  | @send q' io' a b x m h2 h3 =>
    cases h3 with
    | accept _ hw hx =>
      left
      simp only [List.map_append, List.map_cons, List.sum_append, List.sum_cons]
      cases x <;> simp [toSend] at h2 <;> simp [onSent, workerWork] <;> omega
  | @unsent q' a b x m h2 h3 =>
    left
    simp only [List.map_append, List.map_cons, List.sum_append, List.sum_cons]
    cases x <;> simp [toSend] at h2 <;> simp [onSent, workerWork] <;> omega
  | timeout =>
    left
    simp only [List.map_append, List.map_cons, List.sum_append, List.sum_cons]
    simp [workerWork]
  | dropRx h2 h3 => left; simp [h3]
  | dropTx h2 h3 => left; simp [h3]

/-- C116: there is no infinite run without input, however many workers there are. -/
theorem C116_terminates (k : Kind) : WellFounded fun q p : Pool.State => ∃ a, a ≠ .peer ∧ Pool.Step k p a q :=
  Subrelation.wf (fun ⟨_, ha, h⟩ => poolWork_decreases h ha)
    (InvImage.wf poolWork (Prod.lex ⟨_, Nat.lt_wfRel.wf⟩ ⟨_, Nat.lt_wfRel.wf⟩).wf)

theorem pool_cons {p q r : Pool.State} {a : Pool.Act} {as : List Pool.Act}
    (h1 : Pool.Step k p a q) (h2 : Pool.Steps k q as r) : Pool.Steps k p (a :: as) r := by
  induction h2 with
  | nil => exact Pool.Steps.snoc (.nil _) h1
  | snoc _ h4 ih => exact Pool.Steps.snoc ih h4

theorem pool_append {p q r : Pool.State} {as bs : List Pool.Act} (h1 : Pool.Steps k p as q)
    (h2 : Pool.Steps k q bs r) : Pool.Steps k p (as ++ bs) r := by
  induction h2 with
  | nil => simpa using h1
  | snoc _ h4 ih => rw [← List.append_assoc]; exact .snoc ih h4

/-- C116: from wherever it is, a pool can come to rest by itself: without input, without waiting for the time limit and
without a failing write. -/
theorem C116_settles (k : Kind) (p : Pool.State) :
    ∃ as q, Pool.Steps k p as q ∧ Pool.Quiet k q ∧ ∀ a ∈ as, a ≠ .peer ∧ a ≠ .timeout ∧ a ≠ .writeFails := by
  refine (C116_terminates k).induction (C := fun p => ∃ as q, Pool.Steps k p as q ∧
    Pool.Quiet k q ∧ ∀ a ∈ as, a ≠ .peer ∧ a ≠ .timeout ∧ a ≠ .writeFails) p ?_
  intro p ih
  by_cases hq : Pool.Quiet k p
  · exact ⟨[], p, .nil p, hq, by simp⟩
  have : ∃ a q, Pool.Step k p a q ∧ a ≠ .peer ∧ a ≠ .timeout ∧ a ≠ .writeFails := by
    simp only [Pool.Quiet, Classical.not_forall, not_or] at hq
    obtain ⟨a, q, h1, h2, h3⟩ := hq
    by_cases ha : a = .writeFails
    · subst ha
      cases h1 with
      | io hs hk =>
        cases hs with
        | writeFails b hw =>
          cases b with
          | nil => exact ⟨_, _, .io (.written _ hw) rfl, by simp, by simp, by simp⟩
          | cons y b => exact ⟨_, _, .io (.write _ [y] b hw (by simp)) rfl, by simp, by simp, by simp⟩
        | _ => simp [Pool.kindOf] at hk
    · exact ⟨a, q, h1, h2, h3, ha⟩
  obtain ⟨a, q, h1, h2⟩ := this
  obtain ⟨as, r, h3, h4, h5⟩ := ih q ⟨a, h2.1, h1⟩
  refine ⟨a :: as, r, pool_cons h1 h3, h4, ?_⟩
  intro b hb
  rcases List.mem_cons.1 hb with rfl | hb
  · exact h2
  · exact h5 b hb

/-- A connection on which nothing is going on. -/
structure Spec.Resting (io : Transport.State) : Prop where
  reading : io.reader = .reading
  unread : io.unread = []
  inEnd : io.inEnd = none
  rxAlive : io.rxAlive = true
  writer : io.writer = .idle
  txAlive : io.txAlive = true

/-! ### Shutting down -/

/-- Whoever has received the exit notification is still there, or has ended well. -/
theorem exit_kept {io : Transport.State} {n : Nat} {p : Pool.State} {as : List Pool.Act} (hio : Reachable k io)
    (hx : io.rxAlive = true) (ht : io.txAlive = true) (he : Message.notification .exit ∉ io.delivered)
    (h : Pool.Steps k (Pool.start io n) as p) (hd : Message.notification .exit ∈ p.io.delivered) :
    ∃ x ∈ p.workers, x = .idle ∨ x = .ended (.ok ()) := by
  generalize h0 : Pool.start io n = p0 at h
  induction h with
  | nil => subst h0; exact absurd hd he
  | @snoc as q act r h1 h2 ih =>
    have hi := poolInv hio hx ht (h0 ▸ h1)
    cases h2 with
    | io h3 h4 =>
      obtain ⟨act', h5, _⟩ := pool_kind h4
      exact ih ((io_same h3 h5).1 ▸ hd)
    | @recv q' io' a b x m h3 h4 =>
      cases h4 with
      | deliver _ h5 =>
      have hnot : Message.notification .exit ∉ q'.delivered := by
        intro h
        have := (C52_exit hi.reach h).1
        simp only at this
        rw [h5] at this; cases this
      simp only [List.mem_append, List.mem_singleton] at hd
      have hm : m = .notification .exit := by
        rcases hd with h | h
        · exact absurd h hnot
        · exact h.symm
      subst hm
      refine ⟨Pool.onRecv x (some (.notification .exit)), by simp, ?_⟩
      rcases recv_cases (hi.inLoop x (by simp)) h3 (.notification .exit) with
        ⟨_, id, h, _⟩ | ⟨_, r, h, _⟩ | ⟨_, _, h⟩ | ⟨_, _, h⟩ | ⟨_, h, _⟩
      · cases h
      · cases h
      · exact .inl h
      · exact .inr h
      · exact absurd rfl h
    | @closed q' a b x h3 h4 =>
      obtain ⟨y, hy, hyy⟩ := ih hd
      simp only [List.mem_append, List.mem_cons] at hy
      rcases hy with hy | hy | hy
      · exact ⟨y, by simp [hy], hyy⟩
      · subst hy
        rcases hyy with rfl | rfl
        · exact ⟨.ended (.ok ()), by simp [Pool.onRecv, Session.onRecv], .inr rfl⟩
        · cases h3
      · exact ⟨y, by simp [hy], hyy⟩
    | @send q' io' a b x m h3 h4 =>
      cases h4 with
      | accept _ _ _ =>
      obtain ⟨y, hy, hyy⟩ := ih hd
      simp only [List.mem_append, List.mem_cons] at hy
      rcases hy with hy | hy | hy
      · exact ⟨y, by simp [hy], hyy⟩
      · subst hy
        rcases hyy with rfl | rfl <;> cases h3
      · exact ⟨y, by simp [hy], hyy⟩
    | @unsent q' a b x m h3 h4 =>
      obtain ⟨y, hy, hyy⟩ := ih hd
      simp only [List.mem_append, List.mem_cons] at hy
      rcases hy with hy | hy | hy
      · exact ⟨y, by simp [hy], hyy⟩
      · subst hy
        rcases hyy with rfl | rfl <;> cases h3
      · exact ⟨y, by simp [hy], hyy⟩
    | @timeout q' a b =>
      obtain ⟨y, hy, hyy⟩ := ih hd
      simp only [List.mem_append, List.mem_cons] at hy
      rcases hy with hy | hy | hy
      · exact ⟨y, by simp [hy], hyy⟩
      · subst hy
        rcases hyy with h | h <;> cases h
      · exact ⟨y, by simp [hy], hyy⟩
    | dropRx h3 h4 => exact ih hd
    | dropTx h3 h4 => exact ih hd

omit [FloatText] in
/-- At most one of some workers that have ended has ended with an error. -/
theorem one_rough {l : List App} (h1 : ∀ x ∈ l, x = .ended (.ok ()) ∨ x = .ended disc) (h2 : l.countP rough ≤ 1)
    (h3 : l ≠ []) : ∃ a x b, l = a ++ x :: b ∧ (x = .ended (.ok ()) ∨ x = .ended disc) ∧
      ∀ y ∈ a ++ b, y = .ended (.ok ()) := by
  induction l with
  | nil => exact absurd rfl h3
  | cons y l ih =>
    rcases h1 y (by simp) with rfl | rfl
    · by_cases hl : l = []
      · subst hl; exact ⟨[], _, [], rfl, .inl rfl, by simp⟩
      · obtain ⟨a, x, b, rfl, h4, h5⟩ := ih (fun x hx => h1 x (by simp [hx])) (by simpa [List.countP_cons, rough] using h2) hl
        exact ⟨.ended (.ok ()) :: a, x, b, rfl, h4, by
          intro y hy
          simp only [List.cons_append, List.mem_cons] at hy
          rcases hy with rfl | hy
          · rfl
          · exact h5 y hy⟩
    · refine ⟨[], _, l, rfl, .inr rfl, ?_⟩
      have h4 : l.countP rough = 0 := by rw [List.countP_cons_of_pos rfl] at h2; omega
      intro z hz
      rw [List.nil_append] at hz
      rcases h1 z (by simp [hz]) with h | h
      · exact h
      · exact absurd (by rw [h]; rfl) (List.countP_eq_zero.1 h4 z hz)

/-- C117, without the claim that all workers end well: `n` workers are in the loop on a connection, and the client sends
any messages, then the shutdown request and the exit notification.  If no write fails and the exit notification is not
late, then once nothing more can happen, every request has been answered once and the answers have been written, joining
the I/O threads succeeds, and all workers have ended; all but at most one have ended well.  The one that may not have is
told by `handle_shutdown` that the channel is closed.  Some worker has always ended well. -/
theorem C117_partial {io : Transport.State} {n : Nat} {p : Pool.State} {as : List Pool.Act} (hio : Reachable k io)
    (hx : io.rxAlive = true) (ht : io.txAlive = true) (hw : io.writer ≠ writeError k) (hn : 0 < n)
    (he : Message.notification .exit ∉ io.delivered)
    (h : Pool.Steps k (Pool.start io n) as p) (ha : Pool.Act.writeFails ∉ as) (hl : Pool.Act.timeout ∉ as)
    (hq : Pool.Quiet k p) {bs rest : Bytes} {pre : List Message} {sid : RequestId} (hb : p.io.arrived = bs ++ rest)
    (hc : Spec.Carries bs (io.delivered ++ pre ++ [.request (.shutdown sid), .notification .exit]))
    (hs : Spec.NoShutdown pre) (hxp : Message.notification .exit ∉ pre) :
    ∃ sent, p.io.accepted = io.accepted ++ sent ∧ Spec.AnyOrder (Spec.requests pre ++ [.shutdown sid]) sent ∧
      p.io.out = p.io.accepted.flatMap Frame.write ∧ join k p.io = .ok ∧ p.workers.length = n ∧
      App.ended (.ok ()) ∈ p.workers ∧
      ∃ a x b, p.workers = a ++ x :: b ∧ (∀ y ∈ a ++ b, y = .ended (.ok ())) ∧
        (x = .ended (.ok ()) ∨ x = .ended (.err ("unexpected error during shutdown: " ++ Dbg.disconnected))) := by
  have hi := poolInv hio hx ht h
  have hne := pool_no_fail h ha hw
  obtain ⟨ho, hout, hrecv, hend⟩ := pool_rest hi hne hq
  have hkept := exit_kept hio hx ht he h
  obtain ⟨hr, hlen, hg, hin, ds, sent, served, lost, failed, T⟩ := hi
  have hf : failed = [] := by
    cases hfl : failed with
    | nil => rfl
    | cons y l => exact absurd (T.broken (by simp [hfl])) hne
  subst hf
  -- what has been received is a beginning of what the client has sent
  have hpre : ds <+: pre ++ [.request (.shutdown sid), .notification .exit] ∨
      pre ++ [.request (.shutdown sid), .notification .exit] <+: ds := by
    have h1 := C51_prefix hr [] false
    rw [List.append_nil, hb, readAll_carries hc, T.delivered, List.append_assoc, List.append_assoc,
      List.prefix_append_right_inj] at h1
    exact List.prefix_or_prefix_of_prefix h1 ⟨_, List.append_assoc ..⟩
  have hexit : Message.notification .exit ∈ ds → ds = pre ++ [.request (.shutdown sid), .notification .exit] := by
    intro hd
    obtain ⟨_, ⟨ms, h1, h2⟩, _⟩ := C52_exit hr (by rw [T.delivered]; exact List.mem_append_right _ hd)
    have h3 : ∃ ds', ds = ds' ++ [.notification .exit] ∧ Message.notification .exit ∉ ds' := by
      rw [T.delivered] at h1
      rcases List.eq_nil_or_concat ds with h4 | ⟨ds', z, h4⟩
      · rw [h4] at hd; cases hd
      · rw [List.concat_eq_append] at h4
        rw [h4, ← List.append_assoc] at h1
        obtain ⟨h5, h6⟩ := List.append_inj' h1 rfl
        refine ⟨ds', by rw [h4, h6], ?_⟩
        intro h7
        exact h2 (h5 ▸ List.mem_append_right _ h7)
    obtain ⟨ds', h4, h5⟩ := h3
    have e : pre ++ [.request (.shutdown sid), .notification .exit] =
      (pre ++ [.request (.shutdown sid)]) ++ [.notification .exit] := by simp
    have hxs : Message.notification .exit ∉ pre ++ [.request (.shutdown sid)] := by simp [hxp]
    rcases hpre with h6 | h6
    · rw [e, List.prefix_concat_iff] at h6
      rcases h6 with h6 | h6
      · rw [h6, e]
      · exact absurd (h6.subset hd) hxs
    · rw [h4, List.prefix_concat_iff] at h6
      rcases h6 with h6 | h6
      · rw [h4, h6]
      · exact absurd (h6.subset (by simp)) h5
  have hshort : Message.notification .exit ∉ ds → ds <+: pre ++ [.request (.shutdown sid)] := by
    intro hd
    rcases hpre with h6 | h6
    · have e : pre ++ [.request (.shutdown sid), .notification .exit] =
        (pre ++ [.request (.shutdown sid)]) ++ [.notification .exit] := by simp
      rw [e, List.prefix_concat_iff] at h6
      rcases h6 with h6 | h6
      · exact absurd (by rw [h6]; simp) hd
      · exact h6
    · exact absurd (h6.subset (by simp)) hd
  -- nothing but exit comes after shutdown
  have hafter : ∀ m, Spec.AfterShutdown ds m → m = .notification .exit := by
    rintro m ⟨a, id, b, h1, h2⟩
    have h3 : ds <+: pre ++ [.request (.shutdown sid), .notification .exit] := by
      by_cases hd : Message.notification .exit ∈ ds
      · rw [hexit hd]; exact List.prefix_rfl
      · exact (hshort hd).trans ⟨[.notification .exit], by simp⟩
    obtain ⟨t, h4⟩ := h3
    rw [h1, List.append_assoc, List.cons_append] at h4
    rcases List.append_eq_append_iff.1 h4 with ⟨c, h5, h6⟩ | ⟨c, h5, h6⟩
    · cases c with
      | nil =>
        simp only [List.nil_append, List.cons.injEq] at h6
        have : b <+: [.notification .exit] := ⟨t, h6.2⟩
        exact List.mem_singleton.1 (this.subset h2)
      | cons y c =>
        simp only [List.cons_append, List.cons.injEq] at h6
        exact absurd (by rw [h5, ← h6.1]; simp) (hs id)
    · cases c with
      | nil =>
        simp only [List.nil_append, List.cons.injEq] at h6
        have : b <+: [.notification .exit] := ⟨t, h6.2.symm⟩
        exact List.mem_singleton.1 (this.subset h2)
      | cons y c =>
        exfalso
        simp only [List.cons_append, List.cons.injEq] at h6
        cases c with
        | nil => simp only [List.nil_append, List.cons.injEq] at h6; exact absurd h6.2.1 (by simp)
        | cons z c => simp at h6
  have hlost : lost = [] := by
    cases hll : lost with
    | nil => rfl
    | cons r l => cases hafter _ (T.late r (by simp [hll]))
  subst hlost
  have hends : ∀ r, App.ended r ∈ p.workers → p.io.reader.ended = true ∧ Over p.io ∧ (r = .ok () ∨ r = disc) := by
    intro r h
    rcases T.ends r h with h1 | h1 | ⟨h1, _⟩ | ⟨m, h1, h2⟩
    · exact h1
    · exact absurd rfl h1
    · exact absurd h1 hl
    · exact absurd (hafter m h1) h2
  have hne0 : p.workers ≠ [] := by intro h; rw [h] at hlen; simp at hlen; omega
  have hde : Message.notification .exit ∈ p.io.delivered := by
    by_cases hrc : ∃ x ∈ p.workers, x.receives = true
    · exact ((hrecv hrc).2.2 bs _ rest hb hc).subset (by simp)
    · obtain ⟨h1, _⟩ := hend hrc
      obtain ⟨x, hxm⟩ := List.exists_mem_of_ne_nil _ hne0
      obtain ⟨r, h2⟩ := h1 x hxm
      obtain ⟨_, h3, _⟩ := hends r (h2 ▸ hxm)
      rcases h3 with h3 | ⟨stop, h3⟩
      · exact h3
      · have key : ∀ c, Frame.readAll (⟨p.io.arrived, c⟩ : Frame.Flat) = (p.io.delivered, stop) →
            Message.notification .exit ∈ p.io.delivered := by
          intro c h4
          rw [hb, readAll_carries hc] at h4
          have := congrArg (·.1) h4
          simp only at this
          rw [← this]
          simp
        unfold Spec.Input at h3
        split at h3
        · exact key _ h3
        · exact key false (by simpa using h3 [] false)
  obtain ⟨hdone, _, _⟩ := C52_exit hr hde
  have hds : ds = pre ++ [.request (.shutdown sid), .notification .exit] := by
    apply hexit
    rw [T.delivered] at hde
    exact (List.mem_append.1 hde).resolve_left he
  have hnr : ¬ ∃ x ∈ p.workers, x.receives = true := by
    intro h
    have := (hrecv h).1
    rw [hdone] at this; cases this
  obtain ⟨hall, hwd⟩ := hend hnr
  have hreq : Spec.requests ds = Spec.requests pre ++ [.shutdown sid] := by
    rw [hds, reqs_append]; rfl
  have hacc := T.answered
  rw [ho] at hacc
  refine ⟨sent, T.accepted, anyOrder (by simpa using hacc) (by simpa [hreq] using T.received), hout,
    C58_ok_iff.2 ⟨hdone, hwd⟩, hlen, ?_, ?_⟩
  · obtain ⟨x, h1, h2⟩ := hkept hde
    rcases h2 with rfl | rfl
    · obtain ⟨r, h3⟩ := hall _ h1; cases h3
    · exact h1
  · have hfew := T.few
    have hc1 : (Spec.requests ds).countP isShutdown ≤ 1 := by
      rw [hreq, List.countP_append, no_shutdown_count hs]
      simp [isShutdown]
    obtain ⟨a, x, b, h1, h2, h3⟩ := one_rough (l := p.workers) (by
      intro x hxm
      obtain ⟨r, rfl⟩ := hall x hxm
      rcases (hends r hxm).2.2 with rfl | rfl
      · exact .inl rfl
      · exact .inr rfl) (by simp at hfew; omega) hne0
    exact ⟨a, x, b, h1, h3, h2⟩

/-- C117: a single worker ends well. -/
theorem C117_alone {io : Transport.State} {p : Pool.State} {as : List Pool.Act} (hio : Reachable k io)
    (hx : io.rxAlive = true) (ht : io.txAlive = true) (hw : io.writer ≠ writeError k)
    (he : Message.notification .exit ∉ io.delivered)
    (h : Pool.Steps k (Pool.start io 1) as p) (ha : Pool.Act.writeFails ∉ as) (hl : Pool.Act.timeout ∉ as)
    (hq : Pool.Quiet k p) {bs rest : Bytes} {pre : List Message} {sid : RequestId} (hb : p.io.arrived = bs ++ rest)
    (hc : Spec.Carries bs (io.delivered ++ pre ++ [.request (.shutdown sid), .notification .exit]))
    (hs : Spec.NoShutdown pre) (hxp : Message.notification .exit ∉ pre) : p.workers = [.ended (.ok ())] := by
  obtain ⟨sent, _, _, _, _, h1, h2, _⟩ := C117_partial hio hx ht hw (by omega) he h ha hl hq hb hc hs hxp
  match hws : p.workers, h1, h2 with
  | [x], _, h2 => rw [List.mem_singleton.1 h2]

/-- An end is an end. -/
theorem ended_stays {p q : Pool.State} {as : List Pool.Act} {r : Out Unit} (h : Pool.Steps k p as q)
    (hr : App.ended r ∈ p.workers) : App.ended r ∈ q.workers := by
  induction h with
  | nil => exact hr
  | snoc h1 h2 ih =>
    have mid : ∀ {a b : List App} {x y : App}, App.ended r ∈ a ++ x :: b → x ≠ .ended r → App.ended r ∈ a ++ y :: b := by
      intro a b x y h hne
      simp only [List.mem_append, List.mem_cons] at h ⊢
      rcases h with h | h | h
      · exact .inl h
      · exact absurd h.symm hne
      · exact .inr (.inr h)
    cases h2 with
    | io _ _ => exact ih
    | recv h3 _ => exact mid ih (by intro h; subst h; cases h3)
    | closed h3 _ => exact mid ih (by intro h; subst h; cases h3)
    | send h3 _ => exact mid ih (by intro h; subst h; cases h3)
    | unsent h3 _ => exact mid ih (by intro h; subst h; cases h3)
    | timeout => exact mid ih (by simp)
    | dropRx _ _ => exact ih
    | dropTx _ _ => exact ih

theorem pool_arrived {p q : Pool.State} {as : List Pool.Act} (h : Pool.Steps k p as q) (hp : Pool.Act.peer ∉ as) :
    q.io.arrived = p.io.arrived ∧ q.io.inEnd = p.io.inEnd := by
  induction h with
  | nil => exact ⟨rfl, rfl⟩
  | snoc _ h2 ih =>
    simp only [List.mem_append, List.mem_singleton, not_or] at hp
    have ih := ih hp.1
    cases h2 with
    | io hs hk =>
      cases hs with
      | arrive _ _ => simp [Pool.kindOf] at hk; exact absurd hk hp.2
      | hangUp _ _ => simp [Pool.kindOf] at hk; exact absurd hk hp.2
      | read r _ _ => cases r <;> exact ih
      | _ => exact ih
    | recv _ hs => cases hs with | deliver _ _ _ => exact ih
    | send _ hs => cases hs with | accept _ _ _ => exact ih
    | _ => exact ih

/-- The writer can finish what it is writing. -/
theorem writer_finishes {io : Transport.State} {l : List App} {rest : Bytes} (h : io.writer = .writing rest) :
    ∃ as, Pool.Steps k ⟨io, l⟩ as ⟨{ io with writer := .idle, out := io.out ++ rest }, l⟩ ∧ ∀ a ∈ as, a = .thread := by
  cases rest with
  | nil =>
    refine ⟨[.thread], ?_, by simp⟩
    have : Pool.Steps k ⟨io, l⟩ [.thread] ⟨{ io with writer := .idle }, l⟩ :=
      pool_cons (.io (.written _ h) rfl) (.nil _)
    simpa using this
  | cons y rest =>
    exact ⟨_, pool_cons (.io (.write _ (y :: rest) [] (by simpa using h) (by simp)) rfl)
      (pool_cons (.io (.written _ rfl) rfl) (.nil _)), by simp⟩

/-- Idle workers on a connection without input. -/
theorem quiet_idle {io : Transport.State} {n : Nat} (hio : Spec.Resting io) : Pool.Quiet k (Pool.start io (n + 1)) := by
  obtain ⟨hr, hu, hi, hx, hw, ht⟩ := hio
  intro a q h
  generalize hp : Pool.start io (n + 1) = p at h
  have hidle : ∀ x ∈ p.workers, x = .idle := by
    intro x hx; subst hp; exact List.eq_of_mem_replicate hx
  have hpio : p.io = io := by subst hp; rfl
  have hmem : App.idle ∈ p.workers := by subst hp; simp [Pool.start, List.replicate_succ]
  cases h with
  | io h2 h3 =>
    rw [hpio] at h2
    cases h2 with
    | arrive _ _ => simp [Pool.kindOf] at h3; exact .inl h3.symm
    | hangUp _ _ => simp [Pool.kindOf] at h3; exact .inl h3.symm
    | read r h4 h5 => exact (no_read (k := k) hu hi (.read _ r h4 h5)).elim
    | undeliverable m h4 _ => rw [hr] at h4; cases h4
    | write _ _ h4 _ => rw [hw] at h4; cases h4
    | written h4 => rw [hw] at h4; cases h4
    | writeFails _ h4 => rw [hw] at h4; cases h4
    | close _ h4 => rw [ht] at h4; cases h4
    | _ => simp [Pool.kindOf] at h3
  | recv h2 h3 =>
    simp only at hpio; subst hpio
    cases h3 with | deliver _ h4 => rw [hr] at h4; cases h4
  | closed h2 h3 => simp only at hpio; subst hpio; rw [hr] at h3; cases h3
  | @send _ _ a b x m h2 h3 => rw [hidle x (by simp)] at h2; cases h2
  | @unsent _ a b x m h2 h3 => rw [hidle x (by simp)] at h2; cases h2
  | timeout => exact .inr rfl
  | dropRx h2 h3 => obtain ⟨r, h4⟩ := h2 _ hmem; cases h4
  | dropTx h2 h3 => obtain ⟨r, h4⟩ := h2 _ hmem; cases h4

/-- C117: with two or more workers, one of them may well not end well, although no write fails and nothing is late:
another one receives the exit notification. -/
theorem C117_violated {io : Transport.State} {n : Nat} (hio : Spec.Resting io) {sid : RequestId} {bs : Bytes}
    (hc : Spec.Carries bs [.request (.shutdown sid), .notification .exit]) :
    ∃ as p, Pool.Steps k (Pool.start io (n + 2)) as p ∧ Pool.Act.writeFails ∉ as ∧ Pool.Act.timeout ∉ as ∧
      Pool.Quiet k p ∧ p.io.arrived = io.arrived ++ bs ∧
      App.ended (.err ("unexpected error during shutdown: " ++ Dbg.disconnected)) ∈ p.workers := by
  obtain ⟨f1, f2, rfl, h1, h2⟩ := carries_two hc
  obtain ⟨hr, hu, hi, hx, hw, ht⟩ := hio
  let N := List.replicate n App.idle
  have e : List.replicate (n + 2) App.idle = .idle :: .idle :: N := rfl
  let s1 : Transport.State := { io with arrived := io.arrived ++ (f1 ++ f2), unread := io.unread ++ (f1 ++ f2) }
  have t1 : Pool.Step k (Pool.start io (n + 2)) .peer ⟨s1, .idle :: .idle :: N⟩ := .io (.arrive _ (f1 ++ f2) hi) rfl
  let s2 : Transport.State := { s1 with reader := .sending (.request (.shutdown sid)), unread := f2 }
  have t2 : Pool.Step k ⟨s1, .idle :: .idle :: N⟩ .thread ⟨s2, .idle :: .idle :: N⟩ :=
    .io (h1 s1 hr f2 (by simp [s1, hu])) rfl
  let s3 : Transport.State := { s2 with reader := .reading, delivered := s2.delivered ++ [.request (.shutdown sid)] }
  have t3 : Pool.Step k ⟨s2, .idle :: .idle :: N⟩ .worker ⟨s3, .stopping sid :: .idle :: N⟩ :=
    .recv (a := []) (x := .idle) rfl (.deliver s2 (.request (.shutdown sid)) rfl hx)
  let s4 : Transport.State := { s3 with writer := .writing (Frame.write (.response (.ok sid Value.null))),
                                        accepted := s3.accepted ++ [.response (.ok sid Value.null)] }
  have t4 : Pool.Step k ⟨s3, .stopping sid :: .idle :: N⟩ .worker ⟨s4, .leaving :: .idle :: N⟩ :=
    .send (a := []) (x := .stopping sid) rfl (.accept _ _ hw ht)
  let s5 : Transport.State := { s4 with reader := .sending (.notification .exit), unread := [] }
  have t5 : Pool.Step k ⟨s4, .leaving :: .idle :: N⟩ .thread ⟨s5, .leaving :: .idle :: N⟩ :=
    .io (h2 s4 rfl [] (by simp [s4, s3, s2])) rfl
  let s6 : Transport.State := { s5 with reader := .done, delivered := s5.delivered ++ [.notification .exit] }
  have t6 : Pool.Step k ⟨s5, .leaving :: .idle :: N⟩ .worker ⟨s6, .leaving :: .idle :: N⟩ :=
    .recv (a := [.leaving]) (x := .idle) (m := .notification .exit) rfl (.deliver _ _ rfl hx)
  have t7 : Pool.Step k ⟨s6, .leaving :: .idle :: N⟩ .worker ⟨s6, .ended disc :: .idle :: N⟩ :=
    .closed (a := []) (x := .leaving) rfl rfl
  obtain ⟨as, q, h3, h4, h5⟩ := C116_settles k ⟨s6, .ended disc :: .idle :: N⟩
  have h6 := pool_cons t1 (pool_cons t2 (pool_cons t3 (pool_cons t4 (pool_cons t5 (pool_cons t6 (pool_cons t7 h3))))))
  refine ⟨_, q, h6, ?_, ?_, h4, ?_, ended_stays h3 (by simp [disc])⟩
  · simp only [List.mem_cons, reduceCtorEq, false_or]
    exact fun h => (h5 _ h).2.2 rfl
  · simp only [List.mem_cons, reduceCtorEq, false_or]
    exact fun h => (h5 _ h).2.1 rfl
  · exact (pool_arrived h3 (fun h => (h5 _ h).1 rfl)).1

/-- C116: the answers need not come in the order of the requests, if there are two or more workers. -/
theorem C116_overtakes {io : Transport.State} {n : Nat} (hio : Spec.Resting io) {r1 r2 : Request} {bs : Bytes}
    (hn1 : ∀ id, r1 ≠ .shutdown id) (hn2 : ∀ id, r2 ≠ .shutdown id)
    (hc : Spec.Carries bs [.request r1, .request r2]) :
    ∃ as p m1 m2, Pool.Steps k (Pool.start io (n + 2)) as p ∧ Pool.Act.writeFails ∉ as ∧ Pool.Quiet k p ∧
      p.io.arrived = io.arrived ++ bs ∧ Spec.IsReply r1 m1 ∧ Spec.IsReply r2 m2 ∧
      p.io.accepted = io.accepted ++ [m2, m1] := by
  obtain ⟨f1, f2, rfl, h1, h2⟩ := carries_two hc
  obtain ⟨hr, hu, hi, hx, hw, ht⟩ := hio
  let N := List.replicate n App.idle
  have ans : ∀ {r : Request}, (∀ id, r ≠ .shutdown id) → Pool.onRecv .idle (some (.request r)) = .answering r := by
    intro r h
    cases r with
    | shutdown id => exact absurd rfl (h id)
    | _ => rfl
  let s1 : Transport.State := { io with arrived := io.arrived ++ (f1 ++ f2), unread := io.unread ++ (f1 ++ f2) }
  have t1 : Pool.Step k (Pool.start io (n + 2)) .peer ⟨s1, .idle :: .idle :: N⟩ := .io (.arrive _ (f1 ++ f2) hi) rfl
  let s2 : Transport.State := { s1 with reader := .sending (.request r1), unread := f2 }
  have t2 : Pool.Step k ⟨s1, .idle :: .idle :: N⟩ .thread ⟨s2, .idle :: .idle :: N⟩ :=
    .io (h1 s1 hr f2 (by simp [s1, hu])) rfl
  let s3 : Transport.State := { s2 with reader := .reading, delivered := s2.delivered ++ [.request r1] }
  have t3 : Pool.Step k ⟨s2, .idle :: .idle :: N⟩ .worker ⟨s3, .answering r1 :: .idle :: N⟩ := by
    rw [← ans hn1]
    exact .recv (a := []) (x := .idle) rfl (.deliver s2 (.request r1) rfl hx)
  let s4 : Transport.State := { s3 with reader := .sending (.request r2), unread := [] }
  have t4 : Pool.Step k ⟨s3, .answering r1 :: .idle :: N⟩ .thread ⟨s4, .answering r1 :: .idle :: N⟩ :=
    .io (h2 s3 rfl [] (by simp [s3, s2])) rfl
  let s5 : Transport.State := { s4 with reader := .reading, delivered := s4.delivered ++ [.request r2] }
  have t5 : Pool.Step k ⟨s4, .answering r1 :: .idle :: N⟩ .worker ⟨s5, .answering r1 :: .answering r2 :: N⟩ := by
    rw [← ans hn2]
    exact .recv (a := [.answering r1]) (x := .idle) rfl (.deliver s4 (.request r2) rfl hx)
  let s6 : Transport.State :=
    { s5 with writer := .writing (Frame.write (reply r2)), accepted := s5.accepted ++ [reply r2] }
  have t6 : Pool.Step k ⟨s5, .answering r1 :: .answering r2 :: N⟩ .worker ⟨s6, .answering r1 :: .idle :: N⟩ :=
    .send (a := [.answering r1]) (x := .answering r2) rfl (.accept s5 (reply r2) hw ht)
  obtain ⟨as7, t7, n7⟩ := writer_finishes (k := k) (l := .answering r1 :: .idle :: N) (io := s6) rfl
  let s7 : Transport.State := { s6 with writer := .idle, out := s6.out ++ Frame.write (reply r2) }
  let s8 : Transport.State :=
    { s7 with writer := .writing (Frame.write (reply r1)), accepted := s7.accepted ++ [reply r1] }
  have t8 : Pool.Step k ⟨s7, .answering r1 :: .idle :: N⟩ .worker ⟨s8, .idle :: .idle :: N⟩ :=
    .send (a := []) (x := .answering r1) rfl (.accept s7 (reply r1) rfl ht)
  obtain ⟨as9, t9, n9⟩ := writer_finishes (k := k) (l := .idle :: .idle :: N) (io := s8) rfl
  refine ⟨_, _, reply r1, reply r2, pool_cons t1 (pool_cons t2 (pool_cons t3 (pool_cons t4 (pool_cons t5 (pool_cons t6
    (pool_append t7 (pool_cons t8 t9))))))), ?_, ?_, rfl, isReply r1, isReply r2,
    by simp [s8, s7, s6, s5, s4, s3, s2, s1]⟩
  · intro h
    simp only [List.mem_cons, List.mem_append, reduceCtorEq, false_or] at h
    rcases h with h | h
    · cases n7 _ h
    · cases n9 _ h
  · exact quiet_idle (n := n + 1) (io := { s8 with writer := .idle, out := s8.out ++ Frame.write (reply r1) })
      ⟨rfl, rfl, hi, hx, rfl, ht⟩

end

/-! ### Concrete cases -/

section
attribute [local instance] Ext.sample FloatText.sample Dbg.sample

/-- Two requests. -/
def samplePool : List (Json × Message) :=
  [(.obj [("id", .int 2), ("method", .str "workspace/buildTargets"), ("params", .null)],
      .request (.workspaceBuildTargets (.i32 2))),
   (.obj [("id", .str "a"), ("method", .str "workspace/reload"), ("params", .null)],
      .request (.workspaceReload (.str "a")))]

theorem samplePool_ok : ∀ x ∈ samplePool ++ sampleLeave, Spec.nest x.1 ≤ 127 ∧ Spec.Numbers x.1 ∧
    (utf8 (Text.print x.1)).length ≤ 2 ^ 63 - 1 ∧ Message.dec x.1 = some x.2 := by
  intro x hx
  refine sampleTalk_ok x ?_
  simp only [samplePool, sampleTalk, sampleLeave, List.cons_append, List.nil_append, List.mem_cons, List.not_mem_nil,
    or_false] at hx ⊢
  rcases hx with rfl | rfl | rfl | rfl <;> simp

theorem samplePool_carries : Spec.Carries (framed samplePool) (samplePool.map (·.2)) ∧
    Spec.Carries (framed sampleLeave) (sampleLeave.map (·.2)) ∧
    Spec.Carries (framed (samplePool ++ sampleLeave)) ((samplePool ++ sampleLeave).map (·.2)) :=
  ⟨carries_framed fun x hx => samplePool_ok x (List.mem_append_left _ hx),
    carries_framed fun x hx => samplePool_ok x (List.mem_append_right _ hx), carries_framed samplePool_ok⟩

theorem resting_start : Spec.Resting ({} : Transport.State) := ⟨rfl, rfl, rfl, rfl, rfl, rfl⟩

theorem reachable_start (k : Kind) : Reachable k ({} : Transport.State) := ⟨[], .nil _⟩

/-- Bytes arrive and the workers do what there is to do. -/
theorem samplePool_run (k : Kind) (n : Nat) (bs : Bytes) : ∃ as p, Pool.Steps k (Pool.start {} n) as p ∧
    Pool.Act.writeFails ∉ as ∧ Pool.Act.timeout ∉ as ∧ Pool.Quiet k p ∧ p.io.arrived = bs ∧ p.io.inEnd = none := by
  obtain ⟨as, q, h1, h2, h3⟩ := C116_settles k ⟨{ arrived := bs, unread := bs }, List.replicate n .idle⟩
  have h4 : Pool.Step k (Pool.start {} n) .peer ⟨{ arrived := bs, unread := bs }, List.replicate n .idle⟩ :=
    .io (.arrive _ bs rfl) rfl
  obtain ⟨h5, h6⟩ := pool_arrived h1 (fun h => (h3 _ h).1 rfl)
  refine ⟨_, q, pool_cons h4 h1, ?_, ?_, h2, h5, h6⟩
  · simp only [List.mem_cons, reduceCtorEq, false_or]
    exact fun h => (h3 _ h).2.2 rfl
  · simp only [List.mem_cons, reduceCtorEq, false_or]
    exact fun h => (h3 _ h).2.1 rfl

/-- Beside C116: three workers, two requests; one answer to each is written. -/
example (k : Kind) : ∃ as p, Pool.Steps k (Pool.start {} 3) as p ∧ p.workers = [.idle, .idle, .idle] ∧
    Spec.AnyOrder [.workspaceBuildTargets (.i32 2), .workspaceReload (.str "a")] p.io.accepted ∧
    p.io.out = p.io.accepted.flatMap Frame.write := by
  obtain ⟨as, p, h1, h2, _, h3, h4, h5⟩ := samplePool_run k 3 (framed samplePool)
  have hr := pool_reachable h1 (reachable_start k)
  have hpre : p.io.delivered <+: samplePool.map (·.2) := by
    have := C51_prefix hr [] false
    rw [h4, readAll_carries samplePool_carries.1] at this
    simpa [Frame.readAll, readAll_eq, (readMsg_nil).1] using this
  have hns : Spec.NoShutdown p.io.delivered := by
    intro id h
    have := hpre.subset h
    simp [samplePool] at this
  obtain ⟨ds, sent, h6, h7, h8, h9, h10⟩ := C116_rest (reachable_start k) rfl rfl (by cases k <;> simp [writeError]) (by decide)
    h1 h2 h3 (by simpa using hns)
  have hd : p.io.delivered = ds := by simpa using h6
  have ha : p.io.accepted = sent := by simpa using h7
  rcases h10 with ⟨h11, _, h12⟩ | ⟨_, _, h11⟩
  · have h13 := h12 _ _ [] (by rw [h4]; simp) samplePool_carries.1
    have h14 : ds = samplePool.map (·.2) := by
      rw [← hd]; exact hpre.eq_of_length_le h13.length_le
    refine ⟨as, p, h1, h11, ?_, h9⟩
    rw [ha]
    rw [h14] at h8
    exact h8
  · exfalso
    rcases h11 with h11 | ⟨stop, h11⟩
    · have := hpre.subset h11
      simp [samplePool] at this
    · simp only [Spec.Input, h5] at h11
      have e1 := congrArg (·.2) (h11 [] false)
      have e2 := congrArg (·.2) (h11 [] true)
      rw [h4, readAll_carries samplePool_carries.1] at e1 e2
      simp [readAll_eq, (readMsg_nil).1, (readMsg_nil).2] at e1 e2
      rw [← e1] at e2
      cases e2

/-- Beside C116: what has been sent are answers, at any time; and there is a run in which the second request is
answered first. -/
example (k : Kind) : ∃ as p m1 m2, Pool.Steps k (Pool.start {} 2) as p ∧ Pool.Quiet k p ∧
    Spec.IsReply (.workspaceBuildTargets (.i32 2)) m1 ∧ Spec.IsReply (.workspaceReload (.str "a")) m2 ∧
    p.io.accepted = [m2, m1] ∧
    ∃ ds served other, p.io.delivered = ds ∧ (served ++ other).Perm (Spec.requests ds) ∧
      Spec.AnyOrder served [m2, m1] := by
  obtain ⟨as, p, m1, m2, h1, _, h2, _, h3, h4, h5⟩ := C116_overtakes (k := k) (n := 0) resting_start
    (r1 := .workspaceBuildTargets (.i32 2)) (r2 := .workspaceReload (.str "a")) (by simp) (by simp) samplePool_carries.1
  obtain ⟨ds, sent, served, other, h6, h7, h8, h9⟩ := C116_once (reachable_start k) rfl rfl h1
  have e : p.io.accepted = [m2, m1] := by simpa using h5
  have e' : sent = [m2, m1] := by rw [← e]; simpa using h7.symm
  exact ⟨as, p, m1, m2, h1, h2, h3, h4, e, ds, served, other, by simpa using h6, h8, e' ▸ h9⟩

/-- Beside C116: no run from here is infinite unless the client sends. -/
example (k : Kind) : Acc (fun q p : Pool.State => ∃ a, a ≠ .peer ∧ Pool.Step k p a q) (Pool.start {} 5) :=
  (C116_terminates k).apply _

/-- Beside C117: three workers, two requests, shutdown and exit, and ten bytes more. -/
example (k : Kind) : ∃ as p, Pool.Steps k (Pool.start {} 3) as p ∧ join k p.io = .ok ∧
    Spec.AnyOrder [.workspaceBuildTargets (.i32 2), .workspaceReload (.str "a"), .shutdown (.i32 3)] p.io.accepted ∧
    App.ended (.ok ()) ∈ p.workers := by
  obtain ⟨as, p, h1, h2, h3, h4, h5, _⟩ := samplePool_run k 3 (framed (samplePool ++ sampleLeave) ++ List.replicate 10 0)
  obtain ⟨sent, h6, h7, _, h8, _, h9, _⟩ := C117_partial (reachable_start k) rfl rfl (by cases k <;> simp [writeError])
    (by decide) (by simp) h1 h2 h3 h4 (pre := samplePool.map Prod.snd) (sid := .i32 3) h5 samplePool_carries.2.2
    (by simp [Spec.NoShutdown, samplePool]) (by simp [samplePool])
  exact ⟨as, p, h1, h8, by rw [show p.io.accepted = sent by simpa using h6]; exact h7, h9⟩

/-- Beside C117: one worker. -/
example (k : Kind) : ∃ as p, Pool.Steps k (Pool.start {} 1) as p ∧ p.workers = [.ended (.ok ())] := by
  obtain ⟨as, p, h1, h2, h3, h4, h5, _⟩ := samplePool_run k 1 (framed (samplePool ++ sampleLeave))
  exact ⟨as, p, h1, C117_alone (reachable_start k) rfl rfl (by cases k <;> simp [writeError])
    (by simp) h1 h2 h3 h4 (pre := samplePool.map Prod.snd) (sid := .i32 3) (rest := []) (by simpa using h5)
    samplePool_carries.2.2 (by simp [Spec.NoShutdown, samplePool]) (by simp [samplePool])⟩

/-- Beside C117: four workers, shutdown and exit, and one of them reports an error. -/
example (k : Kind) : ∃ as p, Pool.Steps k (Pool.start {} 4) as p ∧ Pool.Quiet k p ∧ p.io.arrived = framed sampleLeave ∧
    ∃ e, App.ended (.err e) ∈ p.workers := by
  obtain ⟨as, p, h1, _, _, h2, h3, h4⟩ := C117_violated (k := k) (n := 2) resting_start (sid := .i32 3)
    samplePool_carries.2.1
  exact ⟨as, p, h1, h2, by simpa using h3, _, h4⟩

/-- Beside C116: a worker about to send, one in `handle_shutdown`, and a message on its way. -/
example (k : Kind) : ∃ as q, Pool.Steps k ⟨{ reader := .sending (.notification .exit) },
    [.answering (.workspaceReload (.str "a")), .leaving, .idle]⟩ as q ∧ Pool.Quiet k q ∧ Pool.Act.peer ∉ as := by
  obtain ⟨as, q, h1, h2, h3⟩ := C116_settles k ⟨{ reader := .sending (.notification .exit) },
    [.answering (.workspaceReload (.str "a")), .leaving, .idle]⟩
  exact ⟨as, q, h1, h2, fun h => (h3 _ h).1 rfl⟩

end
end Bsp
