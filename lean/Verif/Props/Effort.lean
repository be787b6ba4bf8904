/-
C130: what the server does is proportional to what it receives.
-/
import Verif.Props.Size
import Verif.Props.Pool

namespace Bsp
open Frame Json Transport Session
open Conn (Dbg)

section
variable [Ext] [Dbg] [FloatText] {k : Kind} {process : InitializeBuild → Option Value}

/-! ### What is still to be done, apart from what further messages bring and from bytes to be written -/

/-- What the threads still have to do. -/
def ioDebt (s : Transport.State) : Nat :=
  (match s.reader with | .reading => 2 | .sending _ => 1 | _ => 0) +
  (match s.writer with | .idle => 1 | .writing _ => 2 | _ => 0) + s.rxAlive.toNat + s.txAlive.toNat

omit [Dbg] [FloatText] in
/-- What a thread that runs the program still has to do. -/
def appDebt : App → Nat
  | .ended _ => 0
  | .start | .confirming | .idle | .leaving => 1
  | _ => 3

/-- What the process still has to do. -/
def debt (p : Proc) : Nat := ioDebt p.io + appDebt p.app + p.exit.isNone.toNat

omit [FloatText] in
theorem recv_debt (process : InitializeBuild → Option Value) {a : App} (h : a.receives = true) (m : Message) :
    appDebt (onRecv process a (some m)) ≤ appDebt a + 2 := by
  have : ∀ b : App, appDebt b ≤ 3 := by intro b; cases b <;> simp [appDebt]
  have h1 := this (onRecv process a (some m))
  have h2 : appDebt a = 1 := by cases a <;> simp [App.receives] at h <;> rfl
  omega

omit [FloatText] in
theorem closed_debt (process : InitializeBuild → Option Value) {a : App} (h : a.receives = true) :
    appDebt (onRecv process a none) + 1 ≤ appDebt a := by
  obtain ⟨r, h1⟩ := Bsp.onRecv_none (process := process) h
  have h2 : appDebt a = 1 := by cases a <;> simp [App.receives] at h <;> rfl
  rw [h1, h2]; simp [appDebt]

omit [FloatText] in
theorem sent_debt {a : App} {m : Message} (h : toSend a = some m) (b : Bool) : appDebt (onSent a b) + 2 ≤ appDebt a := by
  cases a <;> simp [toSend] at h <;> cases b <;> simp [onSent, appDebt]

omit [Dbg] in
/-- One step of the threads costs one. -/
theorem io_debt {s s' : Transport.State} {a : Transport.Act} {act : Session.Act} (h : Transport.Step k s a s')
    (hk : Session.kindOf a = some act) (hp : act ≠ .peer) :
    ioDebt s' + 1 + s.out.length ≤ ioDebt s + s'.out.length ∧ s'.delivered = s.delivered := by
  cases h with
  | arrive => simp [Session.kindOf] at hk; exact absurd hk.symm hp
  | hangUp => simp [Session.kindOf] at hk; exact absurd hk.symm hp
  | read r h1 _ => cases r <;> cases k <;> simp [ioDebt, afterRead, readError, h1] <;> omega
  | deliver => simp [Session.kindOf] at hk
  | undeliverable m h1 _ => simp [ioDebt, h1]; omega
  | dropRx => simp [Session.kindOf] at hk
  | accept => simp [Session.kindOf] at hk
  | write x y h1 h2 =>
    have := List.length_pos_iff.2 h2
    simp [ioDebt, h1]; omega
  | written h1 => simp [ioDebt, h1]; omega
  | writeFails b h1 => cases k <;> simp [ioDebt, h1, writeError] <;> omega
  | dropTx => simp [Session.kindOf] at hk
  | close h1 _ => simp [ioDebt, h1]; omega

omit [Dbg] in
theorem deliver_debt {s s' : Transport.State} {m : Message} (h : Transport.Step k s (.deliver m) s') :
    ioDebt s' ≤ ioDebt s + 1 ∧ s'.out = s.out ∧ s'.delivered.length = s.delivered.length + 1 := by
  cases h with
  | deliver m h1 _ =>
    refine ⟨?_, rfl, by simp⟩
    simp only [ioDebt, h1, afterSend]
    cases isExit m <;> simp <;> omega

omit [Dbg] in
theorem accept_debt {s s' : Transport.State} {m : Message} (h : Transport.Step k s (.accept m) s') :
    ioDebt s' = ioDebt s + 1 ∧ s'.out = s.out ∧ s'.delivered = s.delivered := by
  cases h with
  | accept m h1 _ => refine ⟨?_, rfl, rfl⟩; simp only [ioDebt, h1]; omega

/-- One step costs one, a message received brings four, and a byte written one. -/
theorem step_debt {p q : Proc} {a : Session.Act} (h : Session.Step k process p a q) (ha : a ≠ .peer) :
    debt q + 1 + p.io.out.length + 4 * p.io.delivered.length ≤ debt p + q.io.out.length + 4 * q.io.delivered.length := by
  cases h with
  | io h1 h2 h3 =>
    obtain ⟨e1, e2⟩ := io_debt h2 h3 ha
    simp only [debt, e2]; omega
  | recv h1 h2 h3 =>
    obtain ⟨e1, e2, e3⟩ := deliver_debt h3
    have := recv_debt process h2
    simp only [debt, e2, e3]
    have := recv_debt process h2 ‹_›
    omega
  | closed h1 h2 h3 =>
    have := closed_debt process h2
    simp only [debt]; omega
  | send h1 h2 h3 =>
    obtain ⟨e1, e2, e3⟩ := accept_debt h3
    have := sent_debt h2 true
    simp only [debt, e2, e3]; omega
  | unsent h1 h2 h3 =>
    have := sent_debt h2 false
    simp only [debt]; omega
  | timeout h1 h2 => simp only [debt, h2, appDebt]; omega
  | dropRx h1 h2 h3 => simp only [debt, ioDebt, h3, Bool.toNat_true, Bool.toNat_false]; omega
  | dropTx h1 h2 h3 => simp only [debt, ioDebt, h3, Bool.toNat_true, Bool.toNat_false]; omega
  | abort h1 h2 h3 h4 h5 =>
    simp only [debt, h1, Option.isNone_none, Option.isNone_some, Bool.toNat_true, Bool.toNat_false]; omega
  | finish h1 h2 h3 h4 h5 =>
    simp only [debt, h1, Option.isNone_none, Option.isNone_some, Bool.toNat_true, Bool.toNat_false]; omega

/-- The peer brings no work by itself. -/
theorem peer_debt {p q : Proc} (h : Session.Step k process p .peer q) :
    debt q = debt p ∧ q.io.out = p.io.out ∧ q.io.delivered = p.io.delivered := by
  generalize ha : Session.Act.peer = a at h
  cases h with
  | io h1 h2 h3 =>
    subst ha
    cases h2 <;> first | exact ⟨rfl, rfl, rfl⟩ | cases h3
  | _ => cases ha

theorem steps_debt {p q : Proc} {as : List Session.Act} (h : Session.Steps k process p as q) :
    (as.filter (· ≠ .peer)).length + debt q + p.io.out.length + 4 * p.io.delivered.length ≤
      debt p + q.io.out.length + 4 * q.io.delivered.length := by
  induction h with
  | nil => simp
  | @snoc as q a r _ hs ih =>
    rw [List.filter_append, List.length_append]
    by_cases ha : a = .peer
    · subst ha
      obtain ⟨e1, e2, e3⟩ := peer_debt hs
      rw [e1, e2, e3]
      exact ih
    · have := step_debt hs ha
      simp only [List.filter_cons, List.filter_nil, ne_eq, ha, not_false_eq_true, decide_true, if_true,
        List.length_singleton] at ih ⊢
      omega

/-- C130: in every execution the process takes, besides what the peer does, at most four steps for each message that its
program receives, one for each byte that it writes, and seven. -/
theorem C130_steps {p : Proc} {as : List Session.Act} (h : Session.Steps k process {} as p) :
    (as.filter (· ≠ .peer)).length ≤ 4 * p.io.delivered.length + p.io.out.length + 7 := by
  have h1 := steps_debt h
  have h2 : debt ({} : Proc) = 7 := rfl
  rw [h2] at h1
  simp at h1 ⊢
  omega

/-! ### Messages and bytes -/

omit [Ext] [Dbg] [FloatText] in
theorem frame_long {f : Bytes} {cs : List Char} (h : Spec.IsFrame f cs) : 21 ≤ f.length := by
  have h1 := C124_frame h
  rw [frame_bytes] at h1
  have h2 : (Nat.toDigits 10 (utf8 cs).length).length ≠ 0 := fun h => Nat.toDigits_ne_nil (List.length_eq_zero_iff.1 h)
  omega

omit [Dbg] in
/-- C130: each message received took at least 21 bytes of the input. -/
theorem C130_messages {s : Transport.State} (h : Transport.Reachable k s) : 21 * s.delivered.length ≤ s.arrived.length := by
  obtain ⟨used, ps, h1, _, h2⟩ := C51_frames h
  have key : ∀ {bs : Bytes} {ms : List Message}, Spec.Carries bs ms → 21 * ms.length ≤ bs.length := by
    intro bs ms hc
    induction hc with
    | nil => simp
    | snoc _ hf _ _ _ ih =>
      have := frame_long hf
      simp only [List.length_append, List.length_cons, List.length_nil]
      omega
  have := key h2
  rw [h1]
  simp only [List.length_append] at this ⊢
  omega

/-- C130: the number of steps is bounded by the number of bytes that have come and gone: four for every 21 bytes that
have come, one for every byte that has gone, and seven. -/
theorem C130_work {p : Proc} {as : List Session.Act} (h : Session.Steps k process {} as p) :
    21 * (as.filter (· ≠ .peer)).length ≤ 4 * p.io.arrived.length + 21 * p.io.out.length + 147 := by
  have h1 := C130_steps h
  have h2 := C130_messages (k := k) (proc_reachable h)
  omega

/-- C130: after the handshake the number of steps is at most three for each byte that comes, and what the handshake
takes. -/
theorem C130_bounded {p : Proc} {as : List Session.Act} (h : Session.Steps k process {} as p) {hand later : Bytes}
    (hb : p.io.arrived = hand ++ later) {early : List Request} {id : RequestId} {ip : InitializeBuild} {v : Value}
    (hc : Spec.Carries hand (Spec.session early id ip [])) (he : ∀ r ∈ early, Spec.Early r) (hv : process ip = some v) :
    (as.filter (· ≠ .peer)).length ≤ 3 * later.length +
      (hand.length + ((Spec.answers process (Spec.session early id ip [])).flatMap write).length + 7) := by
  have h1 := C130_work h
  have h2 := C124_bounded h hb hc he hv
  rw [hb, List.length_append] at h1
  omega

/-! ### Workers -/

/-- What the workers still have to do. -/
def workersDebt : List App → Nat
  | [] => 0
  | x :: xs => appDebt x + workersDebt xs

omit [Dbg] [FloatText] in
theorem workersDebt_mid (a b : List App) (x : App) : workersDebt (a ++ x :: b) = appDebt x + workersDebt (a ++ b) := by
  induction a with
  | nil => rfl
  | cons y a ih => simp only [List.cons_append, workersDebt, ih]; omega

/-- What the threads and the workers still have to do. -/
def poolDebt (p : Pool.State) : Nat := ioDebt p.io + workersDebt p.workers

omit [Dbg] [FloatText] in
theorem pool_not_peer {a : Transport.Act} {act : Pool.Act} (h : Pool.kindOf a = some act) (hp : act ≠ .peer) :
    ∃ b, Session.kindOf a = some b ∧ b ≠ .peer := by
  cases a <;> simp [Pool.kindOf] at h <;> first | exact absurd h.symm hp | exact ⟨_, rfl, by simp⟩

theorem pool_step_debt {p q : Pool.State} {a : Pool.Act} (h : Pool.Step k p a q) (ha : a ≠ .peer) :
    poolDebt q + 1 + p.io.out.length + 4 * p.io.delivered.length ≤
      poolDebt p + q.io.out.length + 4 * q.io.delivered.length := by
  cases h with
  | io h2 h3 =>
    obtain ⟨act, h4, h5⟩ := pool_not_peer h3 ha
    obtain ⟨e1, e2⟩ := io_debt h2 h4 h5
    simp only [poolDebt, e2]; omega
  | @recv _ _ _ _ _ m h2 h3 =>
    obtain ⟨e1, e2, e3⟩ := deliver_debt h3
    have := recv_debt (fun _ => none) h2 m
    simp only [poolDebt, e2, e3, workersDebt_mid, Pool.onRecv]
    omega
  | closed h2 h3 =>
    have := closed_debt (fun _ => none) h2
    simp only [poolDebt, workersDebt_mid, Pool.onRecv]; omega
  | send h2 h3 =>
    obtain ⟨e1, e2, e3⟩ := accept_debt h3
    have := sent_debt h2 true
    simp only [poolDebt, e2, e3, workersDebt_mid]; omega
  | unsent h2 h3 =>
    have := sent_debt h2 false
    simp only [poolDebt, workersDebt_mid]; omega
  | timeout => simp only [poolDebt, workersDebt_mid, appDebt]; omega
  | dropRx h1 h3 => simp only [poolDebt, ioDebt, h3, Bool.toNat_true, Bool.toNat_false]; omega
  | dropTx h1 h3 => simp only [poolDebt, ioDebt, h3, Bool.toNat_true, Bool.toNat_false]; omega

theorem pool_peer_debt {p q : Pool.State} (h : Pool.Step k p .peer q) :
    poolDebt q = poolDebt p ∧ q.io.out = p.io.out ∧ q.io.delivered = p.io.delivered := by
  generalize ha : Pool.Act.peer = a at h
  cases h with
  | io h2 h3 =>
    subst ha
    cases h2 <;> first | exact ⟨rfl, rfl, rfl⟩ | cases h3
  | _ => cases ha

/-- C130: workers that share a connection take together as many steps as one program takes, and one each to end. -/
theorem C130_pool {io : Transport.State} {n : Nat} {p : Pool.State} {as : List Pool.Act}
    (h : Pool.Steps k (Pool.start io n) as p) :
    (as.filter (· ≠ .peer)).length + io.out.length + 4 * io.delivered.length ≤
      4 * p.io.delivered.length + p.io.out.length + n + 6 := by
  have key : ∀ {p q : Pool.State} {as : List Pool.Act}, Pool.Steps k p as q →
      (as.filter (· ≠ .peer)).length + poolDebt q + p.io.out.length + 4 * p.io.delivered.length ≤
        poolDebt p + q.io.out.length + 4 * q.io.delivered.length := by
    intro p q as h
    induction h with
    | nil => simp
    | @snoc as q a r _ hs ih =>
      rw [List.filter_append, List.length_append]
      by_cases ha : a = .peer
      · subst ha
        obtain ⟨e1, e2, e3⟩ := pool_peer_debt hs
        rw [e1, e2, e3]
        exact ih
      · have := pool_step_debt hs ha
        simp only [List.filter_cons, List.filter_nil, ne_eq, ha, not_false_eq_true, decide_true, if_true,
          List.length_singleton] at ih ⊢
        omega
  have h1 := key h
  have h2 : ∀ n, workersDebt (List.replicate n App.idle) = n := by
    intro n
    induction n with
    | zero => rfl
    | succ n ih => rw [List.replicate_succ, workersDebt, ih]; simp [appDebt]; omega
  have h3 : ioDebt io ≤ 6 := by
    unfold ioDebt
    have := Bool.toNat_le io.rxAlive
    have := Bool.toNat_le io.txAlive
    have : (match io.reader with | .reading => 2 | .sending _ => 1 | _ => 0) ≤ 2 := by split <;> omega
    have : (match io.writer with | .idle => 1 | .writing _ => 2 | _ => 0) ≤ 2 := by split <;> omega
    omega
  simp only [poolDebt, Pool.start, h2] at h1
  omega

end

/-! ### Concrete cases -/

section
attribute [local instance] Ext.sample FloatText.sample Dbg.sample

/-- Beside C130: the sample conversation, to the end. -/
example (k : Transport.Kind) : ∃ as p, Session.Steps k sampleHandler {} as p ∧ p.exit = some true ∧
    (as.filter (· ≠ .peer)).length ≤ 4 * p.io.delivered.length + p.io.out.length + 7 ∧
    21 * p.io.delivered.length ≤ (framed (sampleTalk ++ sampleLeave)).length ∧
    21 * (as.filter (· ≠ .peer)).length ≤ 4 * p.io.arrived.length + 21 * p.io.out.length + 147 ∧
    (as.filter (· ≠ .peer)).length ≤ 3 * (framed (sampleTalk.drop 3 ++ sampleLeave)).length +
      ((framed (sampleTalk.take 3)).length +
        ((Spec.answers sampleHandler (Spec.session [.workspaceReload (.str "a")] (.i32 1) sampleInit [])).flatMap
          write).length + 7) := by
  have hc : Spec.Carries (framed (sampleTalk.take 3)) (Spec.session [.workspaceReload (.str "a")] (.i32 1) sampleInit []) :=
    carries_framed fun x hx => sampleTalk_ok x (List.mem_append_left _ (List.mem_of_mem_take hx))
  have ha : framed (sampleTalk ++ sampleLeave) = framed (sampleTalk.take 3) ++ framed (sampleTalk.drop 3 ++ sampleLeave) := by
    unfold framed
    rw [← List.flatMap_append, ← List.append_assoc, List.take_append_drop]
  obtain ⟨as, q, h1, hp, h2, h3, h4⟩ := C73_reached (id := .i32 1) (sid := .i32 3) (ip := sampleInit)
    (v := .ofJson (.str "c")) (early := [.workspaceReload (.str "a")])
    (pre := [.request (.workspaceBuildTargets (.i32 2)), .notification .initialized]) (rest := [])
    (step_arrive k sampleHandler (framed (sampleTalk ++ sampleLeave))) (by simp) (by simp) (by simp)
    sampleTalk_carries.2 (by simp [Spec.Early]) rfl (by simp [Spec.NoShutdown]) (by simp)
  have h5 := steps_arrived h1 hp
  have h6 := steps_append (step_arrive k sampleHandler (framed (sampleTalk ++ sampleLeave))) h1
  exact ⟨_, q, h6, h2, C130_steps h6, by
    have := C130_messages (proc_reachable h6); rwa [h5.1] at this, C130_work h6, C130_bounded h6 (by rw [h5.1]; exact ha) hc (by simp [Spec.Early])
    (by rfl)⟩

/-- Beside C130: three workers, two requests, shutdown and exit. -/
example (k : Kind) : ∃ as p, Pool.Steps k (Pool.start {} 3) as p ∧ Pool.Quiet k p ∧
    (as.filter (· ≠ .peer)).length ≤ 4 * p.io.delivered.length + p.io.out.length + 9 := by
  obtain ⟨as, p, h1, h2, h3, h4, h5, _⟩ := samplePool_run k 3 (framed (samplePool ++ sampleLeave))
  have := C130_pool h1
  exact ⟨as, p, h1, h4, by simpa using this⟩

end
end Bsp
