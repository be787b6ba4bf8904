/-
C70-C74: a whole server process, from the bytes that come in to the bytes that go out.
-/
import Verif.Session
import Verif.Props.Readme
import Verif.Props.Transport

namespace Bsp
open Conn Session Transport

section
variable [Ext] [Dbg]
variable {process : InitializeBuild → Option Value}

/-! ### The main thread is the program of C41-C50 and C63 -/

theorem runs_send {a : App} {m : Message} {w : World} {r w''} (h : toSend a = some m)
    (hr : ∀ b w', send m w = (.ok b, w') → Runs process (onSent a b) w' r w'')
    (hb : ∀ w', send m w = (.blocked, w') → r = .blocked ∧ w'' = w') : Runs process a w r w'' := by
  cases hs : send m w with
  | mk o w' =>
    cases o with
    | ok b => exact .send h hs (hr b w' hs)
    | blocked => obtain ⟨rfl, rfl⟩ := hb w' hs; exact .stuck h hs
    | err _ => unfold send at hs; split at hs <;> first | cases hs | (split at hs <;> cases hs)
    | panic => unfold send at hs; split at hs <;> first | cases hs | (split at hs <;> cases hs)

theorem runs_leaving (w : World) : ∀ o w', awaitExit w = (o, w') →
    Runs process .leaving w (match o with | .ok _ => .ok () | .err e => .err e | .panic => .panic | .blocked => .blocked) w' := by
  intro o w' h
  unfold awaitExit at h
  split at h <;> rename_i h1 <;> cases h
  · exact .exit h1 (.ended _ _)
  · rename_i m hn
    refine .exit h1 ?_
    have : onRecv process .leaving (some m) =
        .ended (.err ("unexpected message during shutdown: " ++ Dbg.msg m)) := by
      unfold onRecv
      split <;> first | (exact absurd rfl (hn _)) | simp_all
    rw [this]
    exact .ended _ _
  · exact .timeout h1
  · exact .noExit h1 (.ended _ _)

theorem runs_idle (n : Nat) : ∀ w : World, w.inp.length = n → Runs process .idle w (block w).1 (block w).2 := by
  induction n using Nat.strongRecOn with
  | _ n ih =>
    intro w hn
    cases hi : w.inp with
    | nil =>
      rcases block_end hi with ⟨t, h1, h2⟩ | ⟨h1, h2⟩ <;> rw [h2]
      · exact .closed rfl (by simp) (w' := { w with now := max w.now t }) (by simp [recv, hi, h1]) (.ended _ _)
      · exact .waiting rfl (by simp) (by simp [recv, hi, h1])
    | cons q rest =>
      obtain ⟨t, m⟩ := q
      have hrecv : recv w = (.ok (some m), { w with inp := rest, now := max w.now t }) := by simp [recv, hi]
      refine .recv rfl (by simp) hrecv ?_
      have hc : ({ w with inp := rest, now := max w.now t, calls := w.calls ++ handled .idle m } : World) =
          { w with inp := rest, now := max w.now t } := by simp [handled]
      simp only [hc]
      have hlt : rest.length < n := by simp [← hn, hi]
      by_cases hm : ∃ r, m = .request r
      · obtain ⟨r, rfl⟩ := hm
        by_cases hr : ∃ id, r = .shutdown id
        · obtain ⟨id, rfl⟩ := hr
          have hb := block_shutdown hi
          simp only [onRecv]
          refine runs_send rfl ?_ ?_
          · intro b w' hs
            simp only [onSent]
            simp only [handleShutdown, hs] at hb
            rw [hb]
            have h2 := runs_leaving (process := process) w'
            cases h3 : awaitExit w' with
            | mk o w2 => have h2 := h2 _ _ h3; cases o <;> exact h2
          · intro w' hs
            rw [hb]
            simp [handleShutdown, hs]
        · have hr' : ∀ id, r ≠ .shutdown id := fun id e => hr ⟨id, e⟩
          have ho : onRecv process .idle (some (.request r)) = .answering r := by
            cases r <;> first | rfl | exact absurd rfl (hr' _)
          rw [ho, block_request hi hr']
          refine runs_send rfl ?_ ?_
          · intro b w' hs
            cases hout : w.out with
            | nil =>
              cases hoe : w.outEnd with
              | closed => simp [send, hout, hoe] at hs; obtain ⟨rfl, rfl⟩ := hs; exact .ended _ _
              | stuck => simp [send, hout, hoe] at hs
            | cons d ds =>
              simp [send, hout] at hs
              obtain ⟨rfl, rfl⟩ := hs
              exact ih _ hlt _ rfl
          · intro w' hs
            cases hout : w.out with
            | nil =>
              cases hoe : w.outEnd with
              | closed => simp [send, hout, hoe] at hs
              | stuck => simp [send, hout, hoe] at hs; subst hs; exact ⟨rfl, rfl⟩
            | cons d ds => simp [send, hout] at hs
      · have hm' : ∀ r, m ≠ .request r := fun r e => hm ⟨r, e⟩
        have ho : onRecv process .idle (some m) = .idle := by
          unfold onRecv
          split <;> simp_all
        rw [ho, block_other hi hm']
        exact ih _ hlt _ rfl

/-- What the main thread does between the calls of `initialize` and of the handler. -/
theorem runs_start (n : Nat) : ∀ w : World, w.inp.length = n → ∀ o w', initializeStart w = (o, w') →
    match o with
    | .ok (id, p) => ∀ r w'', Runs process (onRecv process .start (some (.request (.initializeBuild id p))))
        { w' with calls := w'.calls ++ [p] } r w'' → Runs process .start w r w''
    | .err e => Runs process .start w (.err e) w'
    | .panic => Runs process .start w .panic w'
    | .blocked => Runs process .start w .blocked w' := by
  induction n using Nat.strongRecOn with
  | _ n ih =>
    intro w hn o w' h
    unfold initializeStart at h
    split at h
    · rename_i id p w1 hr
      cases h
      intro r w'' h
      exact .recv rfl (by simp) hr h
    · rename_i req w1 hne hr
      have ho : onRecv process .start (some (.request req)) = .refusing req := by
        cases req <;> first | rfl | exact absurd rfl (hne _ _)
      have hh : handled .start (.request req) = [] := by
        cases req <;> first | rfl | exact absurd rfl (hne _ _)
      have go : ∀ r w'', Runs process (.refusing req) w1 r w'' → Runs process .start w r w'' := by
        intro r w'' h
        refine .recv rfl (by simp) hr ?_
        rw [ho, hh]
        simpa using h
      split at h
      · rename_i w2 hs
        have hlt : w2.inp.length < n := by rw [send_inp hs, ← hn]; exact recv_length hr
        have := ih _ hlt w2 rfl o w' h
        split <;> rename_i h1 <;> simp only at this
        · intro r w'' h2; exact go _ _ (.send rfl hs (this r w'' h2))
        · exact go _ _ (.send rfl hs this)
        · exact go _ _ (.send rfl hs this)
        · exact go _ _ (.send rfl hs this)
      · rename_i w2 hs
        cases h
        exact go _ _ (.send rfl hs (.ended _ _))
      · rename_i o2 w2 h1 h2 hs
        cases h
        refine go _ _ (runs_send rfl ?_ ?_)
        · intro b w' h
          rw [show send _ w1 = _ from hs] at h
          cases h; cases b
          · exact (h2 rfl).elim
          · exact (h1 rfl).elim
        · intro w' h
          rw [show send _ w1 = _ from hs] at h
          cases h; exact ⟨rfl, rfl⟩
    · rename_i m w1 h1 h2 hr
      cases h
      refine .recv rfl (by simp) hr ?_
      have ho : onRecv process .start (some m) =
          .ended (.err ("expected initialize request, got " ++ Dbg.msg m)) := by
        cases m <;> first | rfl | exact absurd rfl (h2 _)
      have hh : handled .start m = [] := by
        cases m <;> first | rfl | exact absurd rfl (h2 _)
      rw [ho, hh]
      simpa using Runs.ended (process := process) _ _
    · rename_i w1 hr
      cases h
      exact .closed rfl (by simp) hr (.ended _ _)
    · rename_i o2 w1 h1 h2 h3 h4 hr
      cases h
      cases o2 with
      | blocked => exact .waiting rfl (by simp) hr
      | ok x =>
        cases x with
        | none => exact (h4 rfl).elim
        | some m => exact (h3 _ rfl).elim
      | _ => unfold recv at hr; split at hr <;> first | cases hr | (split at hr <;> cases hr)

/-- The main thread of the process model, run against an environment of Verif.Conn, is the program `serve`
of C41-C50 and C63. -/
theorem runs_serve (w : World) : Runs process .start w (serve process w).1 (serve process w).2 := by
  unfold serve handshake
  cases h0 : initializeStart w with
  | mk o w1 =>
    have h1 := runs_start (process := process) _ w rfl o w1 h0
    cases o with
    | err e => exact h1
    | panic => exact h1
    | blocked => exact h1
    | ok x =>
      obtain ⟨id, p⟩ := x
      simp only at h1 ⊢
      refine h1 _ _ ?_
      cases hp : process p with
      | none => simp only [onRecv, hp]; exact .ended _ _
      | some v =>
        simp only [onRecv, hp]
        refine runs_send rfl ?_ ?_
        · intro b w2 hs
          cases b with
          | false => simp only [initializeFinish, hs]; exact .ended _ _
          | true =>
            simp only [initializeFinish, hs, onSent]
            cases hr : recv w2 with
            | mk o w3 =>
              cases o with
              | ok x =>
                cases x with
                | none => exact .closed rfl (by simp) hr (.ended _ _)
                | some m =>
                  refine .recv rfl (by simp) hr ?_
                  have hh : handled .confirming m = [] := by simp [handled]
                  rw [hh]
                  simp only [List.append_nil]
                  by_cases hm : m = .notification .initialized
                  · subst hm; exact runs_idle _ w3 rfl
                  · have ho : onRecv process .confirming (some m) =
                        .ended (.err ("expected Message::Notification, got: " ++ Dbg.msg m)) := by
                      unfold onRecv
                      split <;> simp_all
                    rw [ho]
                    split <;> rename_i heq <;> split at heq <;> cases heq <;> simp_all
                    exact .ended _ _
              | blocked => exact .waiting rfl (by simp) hr
              | _ => unfold recv at hr; split at hr <;> first | cases hr | (split at hr <;> cases hr)
        · intro w2 hs
          simp [initializeFinish, hs]

theorem receives_toSend {a : App} (h : a.receives = true) : toSend a = none := by
  cases a <;> simp_all [App.receives, toSend]

theorem toSend_receives {a : App} {m : Message} (h : toSend a = some m) : a.receives = false := by
  cases a <;> simp_all [App.receives, toSend]

omit [Dbg] in
theorem receives_ended (r : Out Unit) : (App.ended r).receives = false := rfl
theorem toSend_ended (r : Out Unit) : toSend (.ended r) = none := rfl
theorem toSend_leaving : toSend .leaving = none := rfl
omit [Dbg] in
theorem receives_leaving : App.leaving.receives = true := rfl

/-- There is only one run. -/
theorem runs_unique {a : App} {w w1 w2 : World} {r1 r2 : Out Unit} (h1 : Runs process a w r1 w1)
    (h2 : Runs process a w r2 w2) : r1 = r2 ∧ w1 = w2 := by
  induction h1 with
  | ended r w => cases h2 <;> simp_all [receives_ended, toSend_ended]
  | recv h3 h4 h5 _ ih => have h6 := receives_toSend h3; cases h2 <;> simp_all [receives_ended]
  | closed h3 h4 h5 _ ih => have h6 := receives_toSend h3; cases h2 <;> simp_all [receives_ended]
  | waiting h3 h4 h5 => have h6 := receives_toSend h3; cases h2 <;> simp_all [receives_ended]
  | exit h3 _ ih => cases h2 <;> simp_all [toSend_leaving]
  | noExit h3 _ ih => cases h2 <;> simp_all [toSend_leaving]
  | timeout h3 => cases h2 <;> simp_all [toSend_leaving]
  | send h3 h4 _ ih => have h6 := toSend_receives h3; cases h2 <;> simp_all [receives_leaving, toSend_ended]
  | stuck h3 h4 => have h6 := toSend_receives h3; cases h2 <;> simp_all [receives_leaving, toSend_ended]

/-- C70: the main thread of the process model, run against any environment that answers its receives and sends,
does what the sequential program of C41-C50 and C63 does. -/
theorem C70_main (w w' : World) (r : Out Unit) :
    Runs process .start w r w' ↔ serve process w = (r, w') := by
  constructor
  · intro h
    obtain ⟨h1, h2⟩ := runs_unique h (runs_serve w)
    rw [h1, h2]
  · intro h
    have := runs_serve (process := process) w
    rwa [h] at this

/-! ### What is owed -/

/-- The messages that the sequential program sends when it receives the given messages, nothing more comes, and every
send succeeds. -/
def Spec.answers (process : InitializeBuild → Option Value) (ms : List Message) : List Message :=
  (serve process { inp := ms.map (0, ·), fin := .silent, out := ms.map fun _ => 0, outEnd := .stuck }).2.sent

/-- One message received, and sent what is to be sent for it. -/
def round (process : InitializeBuild → Option Value) (a : App) (m : Message) : App × List Message :=
  match toSend (onRecv process a (some m)) with
  | some r => (onSent (onRecv process a (some m)) true, [r])
  | none => (onRecv process a (some m), [])

/-- All messages received. -/
def feed (process : InitializeBuild → Option Value) : App → List Message → App × List Message
  | a, [] => (a, [])
  | a, m :: ms =>
    ((feed process (round process a m).1 ms).1, (round process a m).2 ++ (feed process (round process a m).1 ms).2)

theorem feed_append (a : App) (ms ms' : List Message) :
    feed process a (ms ++ ms') = ((feed process (feed process a ms).1 ms').1,
      (feed process a ms).2 ++ (feed process (feed process a ms).1 ms').2) := by
  induction ms generalizing a with
  | nil => simp [feed]
  | cons m ms ih => simp [feed, ih]

theorem feed_snoc (a : App) (ms : List Message) (m : Message) :
    feed process a (ms ++ [m]) = ((round process (feed process a ms).1 m).1,
      (feed process a ms).2 ++ (round process (feed process a ms).1 m).2) := by
  rw [feed_append]; simp [feed]

theorem onSent_toSend {a : App} {m : Message} (h : toSend a = some m) : toSend (onSent a true) = none := by
  cases a <;> simp_all [toSend, onSent]

theorem round_toSend (a : App) (m : Message) : toSend (round process a m).1 = none := by
  unfold round
  split
  · rename_i h; exact onSent_toSend h
  · rename_i h; exact h

theorem feed_toSend {a : App} (h : toSend a = none) (ms : List Message) : toSend (feed process a ms).1 = none := by
  induction ms generalizing a with
  | nil => exact h
  | cons m ms ih => exact ih (round_toSend a m)

theorem onRecv_ended (r : Out Unit) (o : Option Message) : onRecv process (.ended r) o = .ended r := by
  unfold onRecv; split <;> simp_all

theorem round_ended (r : Out Unit) (m : Message) : round process (.ended r) m = (.ended r, []) := by
  unfold round
  rw [onRecv_ended]
  rfl

theorem feed_ended (r : Out Unit) (ms : List Message) : feed process (.ended r) ms = (.ended r, []) := by
  induction ms with
  | nil => rfl
  | cons m ms ih => simp [feed, round_ended, ih]

theorem rests {a : App} (h : toSend a = none) : a.receives = true ∨ ∃ r, a = .ended r := by
  cases a <;> simp_all [App.receives, toSend]

theorem runs_feed (ms : List Message) : ∀ (a : App) (w : World), toSend a = none → w.inp = ms.map (0, ·) →
    w.fin = .silent → ms.length ≤ w.out.length →
    ∃ r w', Runs process a w r w' ∧ w'.sent = w.sent ++ (feed process a ms).2 := by
  induction ms with
  | nil =>
    intro a w ha hi hf _
    rcases rests ha with hr | ⟨r, rfl⟩
    · by_cases hl : a = .leaving
      · subst hl
        exact ⟨_, _, .timeout (w' := { w with now := w.now + 30000 }) (by simp [recvTimeout, hi, hf]), by simp [feed]⟩
      · exact ⟨_, _, .waiting hr hl (w' := w) (by simp [recv, hi, hf]), by simp [feed]⟩
    · exact ⟨_, _, .ended _ _, by simp [feed]⟩
  | cons m ms ih =>
    intro a w ha hi hf hl
    rcases rests ha with hr | ⟨r, rfl⟩
    · have step : ∀ w1 : World, w1.inp = ms.map (0, ·) → w1.fin = .silent → w1.out = w.out → w1.sent = w.sent →
          ∃ r w', Runs process (onRecv process a (some m)) w1 r w' ∧
            w'.sent = w.sent ++ (feed process a (m :: ms)).2 := by
        intro w1 h1 h2 h3 h4
        cases ht : toSend (onRecv process a (some m)) with
        | none =>
          obtain ⟨r, w', h5, h6⟩ := ih _ w1 ht h1 h2 (by rw [h3]; simp at hl; omega)
          exact ⟨r, w', h5, by rw [h6, h4]; simp [feed, round, ht]⟩
        | some x =>
          cases ho : w.out with
          | nil => simp [ho] at hl
          | cons d ds =>
            obtain ⟨r, w', h5, h6⟩ := ih _ { w1 with out := ds, now := w1.now + d, sent := w1.sent ++ [x] }
              (onSent_toSend ht) h1 h2 (by simp [ho] at hl; simpa using hl)
            refine ⟨r, w', .send ht (b := true) (by simp [send, h3, ho]) h5, ?_⟩
            rw [h6, h4]
            simp [feed, round, ht]
      by_cases hv : a = .leaving
      · subst hv
        obtain ⟨r, w', h1, h2⟩ := step { w with inp := ms.map (0, ·), now := max w.now 0 } rfl hf rfl rfl
        exact ⟨r, w', .exit (by simp [recvTimeout, hi]) h1, h2⟩
      · obtain ⟨r, w', h1, h2⟩ := step { w with
            inp := ms.map (0, ·), now := max w.now 0, calls := w.calls ++ handled a m } rfl hf rfl rfl
        exact ⟨r, w', .recv hr hv (w' := { w with inp := ms.map (0, ·), now := max w.now 0 }) (by simp [recv, hi]) h1, h2⟩
    · exact ⟨_, _, .ended _ _, by simp [feed_ended]⟩

theorem answers_eq (ms : List Message) : Spec.answers process ms = (feed process .start ms).2 := by
  obtain ⟨r, w', h1, h2⟩ := runs_feed (process := process) ms .start
    { inp := ms.map (0, ·), fin := .silent, out := ms.map fun _ => 0, outEnd := .stuck } rfl rfl rfl (by simp)
  have := (runs_unique h1 (runs_serve _)).2
  unfold Spec.answers
  rw [← this, h2]
  simp

theorem answers_prefix {ms ms' : List Message} (h : ms <+: ms') :
    Spec.answers process ms <+: Spec.answers process ms' := by
  obtain ⟨t, rfl⟩ := h
  rw [answers_eq, answers_eq, feed_append]
  exact List.prefix_append _ _

/-! ### The invariant -/

variable [FloatText] {k : Kind}

theorem proc_steps {p q : Proc} {as : List Session.Act} (h : Session.Steps k process p as q) :
    Reachable k p.io → Reachable k q.io := by
  intro hp
  induction h with
  | nil => exact hp
  | snoc _ h2 ih =>
    cases h2 with
    | io _ hs _ => exact reachable_step ih hs
    | recv _ _ hs => exact reachable_step ih hs
    | send _ _ hs => exact reachable_step ih hs
    | dropRx _ _ _ => exact reachable_step ih (.dropRx _)
    | dropTx _ _ _ => exact reachable_step ih (.dropTx _)
    | _ => exact ih

theorem proc_reachable {p : Proc} {as : List Session.Act} (h : Session.Steps k process {} as p) :
    Reachable k p.io := proc_steps h ⟨[], .nil _⟩

/-- The reader has ended, and not because the receiver is gone: exit has been delivered or the input is over. -/
def Over (s : State) : Prop :=
  Message.notification .exit ∈ s.delivered ∨ ∃ stop, Spec.Input s s.delivered stop

/-- Where the main thread is, given what it has received and sent: `a` is where it would be after having sent
everything it owes. -/
inductive At (process : InitializeBuild → Option Value) (as : List Session.Act) (p : Proc) (a : App)
    (owed : List Message) : Prop
  | rest : p.app = a → p.io.accepted = owed → At process as p a owed
  | sending {m} : toSend p.app = some m → onSent p.app true = a → owed = p.io.accepted ++ [m] →
      At process as p a owed
  | closed : a.receives = true → p.app = onRecv process a none → p.io.reader.ended = true → Over p.io →
      p.io.accepted = owed → At process as p a owed
  | late : a = .leaving → p.app = .ended (.err ("unexpected error during shutdown: " ++ Dbg.timeout)) →
      Session.Act.timeout ∈ as → p.io.accepted = owed → At process as p a owed

/-- What holds of the main thread. -/
structure MainInv (k : Kind) (process : InitializeBuild → Option Value) (as : List Session.Act) (p : Proc) :
    Prop where
  sent : p.io.accepted <+: (feed process .start p.io.delivered).2
  at' : p.io.writer ≠ writeError k →
    At process as p (feed process .start p.io.delivered).1 (feed process .start p.io.delivered).2
  gone : p.io.rxAlive = false ∨ p.io.txAlive = false → ∃ r, p.app = .ended r
  exits : ∀ b, p.exit = some b → p.io.txAlive = false ∧ ∃ r, p.app = .ended r ∧
    ((r ≠ .ok () ∧ b = false) ∨ (r = .ok () ∧ join k p.io ≠ .waiting ∧ b = decide (join k p.io = .ok)))

theorem At.mono {as as' : List Session.Act} {p p' : Proc} {a : App} {owed : List Message}
    (h : At process as p a owed) (h1 : p'.app = p.app) (h2 : p'.io.accepted = p.io.accepted)
    (h3 : p.io.reader.ended = true → p'.io.reader.ended = true) (h4 : Over p.io → Over p'.io)
    (h5 : ∀ x ∈ as, x ∈ as') : At process as' p' a owed := by
  cases h with
  | rest h6 h7 => exact .rest (h1.trans h6) (h2.trans h7)
  | sending h6 h7 h8 => exact .sending (h1 ▸ h6) (h1 ▸ h7) (h2 ▸ h8)
  | closed h6 h7 h8 h9 h10 => exact .closed h6 (h1.trans h7) (h3 h8) (h4 h9) (h2.trans h10)
  | late h6 h7 h8 h9 => exact .late h6 (h1.trans h7) (h5 _ h8) (h2.trans h9)

omit [FloatText] in
theorem onRecv_none {a : App} (h : a.receives = true) : ∃ r, onRecv process a none = .ended r := by
  cases a <;> simp_all [App.receives, onRecv]

omit [Dbg] in
theorem io_same {s s' : State} {a : Transport.Act} {act : Session.Act} (h : Transport.Step k s a s')
    (ha : kindOf a = some act) :
    s'.delivered = s.delivered ∧ s'.accepted = s.accepted ∧ s'.rxAlive = s.rxAlive ∧ s'.txAlive = s.txAlive ∧
    (s.reader.ended = true → s'.reader.ended = true) ∧ (s.writer = writeError k → s'.writer = writeError k) ∧
    (act ≠ .writeFails → s'.writer = writeError k → s.writer = writeError k) := by
  cases h with
  | read r h1 h2 =>
    simp only [kindOf, Option.some.injEq] at ha
    subst ha
    cases r <;> simp [afterRead, h1, Transport.Reader.ended]
  | _ =>
    simp only [kindOf, Option.some.injEq, reduceCtorEq] at ha <;> subst ha <;>
      cases k <;> simp_all [Transport.Reader.ended, writeError]

omit [Dbg] in
theorem over_io {s s' : State} {a : Transport.Act} {act : Session.Act} (h : Transport.Step k s a s')
    (ha : kindOf a = some act) (ho : Over s) : Over s' := by
  have e := (io_same h ha).1
  rcases ho with h1 | ⟨stop, h1⟩
  · exact .inl (e ▸ h1)
  · refine .inr ⟨stop, ?_⟩
    rw [e]
    cases h with
    | arrive bs h2 => exact input_arrive h1 h2 bs rfl h2
    | hangUp b h2 => exact input_hangUp h1 h2 b rfl rfl
    | read r _ _ => cases r <;> exact input_same h1 rfl rfl
    | _ => exact input_same h1 rfl rfl

omit [Dbg] in
/-- A receive fails only when the input is over. -/
theorem over_closed {s : State} (h : Reachable k s) (he : s.reader.ended = true) (hx : s.rxAlive = true) : Over s := by
  cases hr : s.reader with
  | reading => rw [hr] at he; cases he
  | sending m => rw [hr] at he; cases he
  | done =>
    rcases (readInv h).1.isDone hr with ⟨ms, h1⟩ | h1
    · exact .inl (by rw [h1]; simp)
    · exact .inr ⟨_, h1⟩
  | failed => obtain ⟨_, stop, _, h1⟩ := C55_error h hr; exact .inr ⟨stop, h1⟩
  | panicked =>
    rcases C55_panic h hr with ⟨h1, _⟩ | ⟨_, stop, _, h1⟩ | h1
    · rw [hx] at h1; cases h1
    · exact .inr ⟨stop, h1⟩
    · exact .inr ⟨_, h1⟩

omit [Dbg] in
theorem over_same {s s' : State} (h : Over s) (h1 : s'.delivered = s.delivered) (h2 : s'.arrived = s.arrived)
    (h3 : s'.inEnd = s.inEnd) : Over s' := by
  rcases h with h | ⟨stop, h⟩
  · exact .inl (h1 ▸ h)
  · exact .inr ⟨stop, by rw [h1]; exact input_same h h2 h3⟩

theorem mainInv {p : Proc} {as : List Session.Act} (h : Session.Steps k process {} as p) :
    MainInv k process as p := by
  have key : ∀ {p0 as p}, Session.Steps k process p0 as p → p0 = ({} : Proc) → MainInv k process as p := by
    intro p0 as p h
    induction h with
    | nil => intro e; subst e; exact ⟨List.nil_prefix, fun _ => .rest rfl rfl, by simp, by simp⟩
    | @snoc as q a r h1 h2 ih =>
      intro e
      subst e
      obtain ⟨hs, ha, hg, hx⟩ := ih rfl
      have hr := proc_reachable h1
      have idle_ok : q.io.writer = .idle → q.io.writer ≠ writeError k := by
        intro h1 h2; rw [h1] at h2; cases k <;> cases h2
      have mem : ∀ x ∈ as, x ∈ as ++ [a] := fun x h => List.mem_append_left _ h
      have alive : ∀ {m}, toSend q.app = some m → q.io.txAlive = true := by
        intro m h3
        cases ht : q.io.txAlive with
        | true => rfl
        | false => obtain ⟨r, h⟩ := hg (.inr ht); rw [h] at h3; cases h3
      have alive' : q.app.receives = true → q.io.rxAlive = true := by
        intro h3
        cases ht : q.io.rxAlive with
        | true => rfl
        | false => obtain ⟨r, h⟩ := hg (.inl ht); rw [h] at h3; cases h3
      have still : ∀ {r}, q.app = .ended r → q.app.receives = false ∧ toSend q.app = none := by
        intro r h; rw [h]; exact ⟨rfl, rfl⟩
      have notyet : ∀ {b}, q.exit = none → q.exit = some b → False := by
        intro b h1 h2; rw [h1] at h2; cases h2
      have resting : q.app.receives = true → q.io.writer ≠ writeError k →
          q.app = (feed process .start q.io.delivered).1 ∧ q.io.accepted = (feed process .start q.io.delivered).2 := by
        intro h3 hw
        cases ha hw with
        | rest h7 h8 => exact ⟨h7, h8⟩
        | sending h7 _ _ => rw [receives_toSend h3] at h7; cases h7
        | closed h7 h8 _ _ _ =>
          obtain ⟨r, h9⟩ := onRecv_none (process := process) h7
          rw [h8, h9] at h3; cases h3
        | late _ h8 _ _ => rw [h8] at h3; cases h3
      cases h2 with
      | io h2 h3 h4 =>
        obtain ⟨e1, e2, e3, e4, e5, e6, _⟩ := io_same h3 h4
        refine ⟨by simpa only [e1, e2] using hs, ?_, by simpa only [e3, e4] using hg,
          fun b h => (notyet h2 h).elim⟩
        intro hw
        simp only [e1]
        exact (ha (fun h => hw (e6 h))).mono rfl e2 e5 (over_io h3 h4) mem
      | @recv m io1 h2 h3 h4 =>
        cases h4 with
        | deliver h5 h6 =>
          refine ⟨?_, ?_, ?_, fun b h => (notyet h2 h).elim⟩
          · simp only [feed_snoc]; exact hs.trans (List.prefix_append _ _)
          · intro hw
            simp only [feed_snoc]
            obtain ⟨h7, h8⟩ := resting h3 hw
            rw [← h7]
            unfold round
            cases ht : toSend (onRecv process q.app (some m)) with
            | none => exact .rest rfl (by simpa using h8)
            | some x => exact .sending ht rfl (by simp [← h8])
          · intro h
            obtain ⟨r, h⟩ := hg h
            rw [(still h).1] at h3; cases h3
      | closed h2 h3 h4 =>
        refine ⟨hs, ?_, ?_, fun b h => (notyet h2 h).elim⟩
        · intro hw
          obtain ⟨h7, h8⟩ := resting h3 hw
          exact .closed (h7 ▸ h3) (by simp [h7]) h4 (over_closed hr h4 (alive' h3)) h8
        · intro h
          obtain ⟨r, h⟩ := hg h
          rw [(still h).1] at h3; cases h3
      | @send m io1 h2 h3 h4 =>
        cases h4 with
        | accept _ h5 h6 =>
          have key : q.io.accepted ++ [m] = (feed process .start q.io.delivered).2 ∧
              onSent q.app true = (feed process .start q.io.delivered).1 := by
            cases ha (idle_ok h5) with
            | rest h7 _ =>
              have := feed_toSend (process := process) (a := .start) rfl q.io.delivered
              rw [← h7, h3] at this; cases this
            | sending h7 h8 h9 => rw [h3] at h7; cases h7; exact ⟨h9.symm, h8⟩
            | closed h7 h8 _ _ _ =>
              obtain ⟨r, h9⟩ := onRecv_none (process := process) h7
              rw [h8, h9] at h3; cases h3
            | late _ h8 _ _ => rw [h8] at h3; cases h3
          refine ⟨by simp [← key.1], fun _ => .rest key.2 key.1, ?_, fun b h => (notyet h2 h).elim⟩
          intro h
          obtain ⟨r, h⟩ := hg h
          rw [(still h).2] at h3; cases h3
      | unsent h2 h3 h4 =>
        refine ⟨hs, ?_, ?_, fun b h => (notyet h2 h).elim⟩
        · intro hw
          exact absurd (C54_alive hr (alive h3) h4) hw
        · intro h
          obtain ⟨r, h⟩ := hg h
          rw [(still h).2] at h3; cases h3
      | timeout h2 h3 =>
        refine ⟨hs, ?_, fun _ => ⟨_, rfl⟩, fun b h => (notyet h2 h).elim⟩
        intro hw
        obtain ⟨h7, h8⟩ := resting (by rw [h3]; rfl) hw
        exact .late (h7 ▸ h3) rfl (by simp) h8
      | dropRx h2 h3 h4 =>
        refine ⟨hs, ?_, fun _ => ⟨_, h3⟩, fun b h => (notyet h2 h).elim⟩
        intro hw
        exact (ha hw).mono rfl rfl _root_.id (fun h => over_same h rfl rfl rfl) mem
      | dropTx h2 h3 h4 =>
        refine ⟨hs, ?_, fun _ => ⟨_, h3⟩, fun b h => (notyet h2 h).elim⟩
        intro hw
        exact (ha hw).mono rfl rfl _root_.id (fun h => over_same h rfl rfl rfl) mem
      | abort h2 h3 h4 h5 h6 =>
        refine ⟨hs, fun hw => (ha hw).mono rfl rfl _root_.id _root_.id mem, hg, ?_⟩
        intro b h
        cases h
        exact ⟨h6, _, h3, .inl ⟨h4, rfl⟩⟩
      | finish h2 h3 h4 h5 h6 =>
        refine ⟨hs, fun hw => (ha hw).mono rfl rfl _root_.id _root_.id mem, hg, ?_⟩
        intro b h
        cases h
        exact ⟨h5, _, h3, .inr ⟨rfl, h6, rfl⟩⟩
  exact key h rfl

omit [Ext] [Dbg] [FloatText] in
theorem flatMap_prefix {α β : Type} {f : α → List β} {a b : List α} (h : a <+: b) : a.flatMap f <+: b.flatMap f := by
  obtain ⟨t, rfl⟩ := h
  simp

/-- C70: whatever the schedule, the sizes in which input arrives and output is taken, and the way the process ends:
what the process has written is a prefix of the frames of the messages that the sequential program sends on receiving
the messages in the input. -/
theorem C70_output {p : Proc} {as : List Session.Act} (h : Session.Steps k process {} as p) (more : Bytes) (b : Bool) :
    p.io.out <+:
      (Spec.answers process (Frame.readAll (⟨p.io.arrived ++ more, b⟩ : Frame.Flat)).1).flatMap Frame.write := by
  have hr := proc_reachable h
  refine (C53_output hr).1.trans (flatMap_prefix ?_)
  rw [answers_eq]
  refine (mainInv h).sent.trans ?_
  rw [← answers_eq, ← answers_eq]
  exact answers_prefix (C51_prefix hr more b)

/-! ### Nothing is left undone -/

theorem no_fail {p : Proc} {as : List Session.Act} (h : Session.Steps k process {} as p)
    (hn : Session.Act.writeFails ∉ as) : p.io.writer ≠ writeError k := by
  have key : ∀ {p0 as p}, Session.Steps k process p0 as p → p0 = ({} : Proc) → Session.Act.writeFails ∉ as →
      p.io.writer ≠ writeError k := by
    intro p0 as p h
    induction h with
    | nil => intro e _ h; subst e; cases k <;> cases h
    | @snoc as q a r h1 h2 ih =>
      intro e hn
      simp only [List.mem_append, List.mem_singleton, not_or] at hn
      have hq := ih e hn.1
      cases h2 with
      | io h2 h3 h4 => exact fun h => hq ((io_same h3 h4).2.2.2.2.2.2 (fun e => hn.2 e.symm) h)
      | recv _ _ hs => cases hs with | deliver _ _ => exact hq
      | send _ _ hs => cases hs with | accept _ _ _ => intro h; cases k <;> cases h
      | _ => exact hq
  exact key h rfl hn

omit [Dbg] in
/-- A writer at work can take a step. -/
theorem writer_moves {s : State} {rest : Bytes} (h : s.writer = .writing rest) :
    ∃ a s', Transport.Step k s a s' ∧ kindOf a = some .thread := by
  cases rest with
  | nil => exact ⟨_, _, .written s h, rfl⟩
  | cons x rest => exact ⟨_, _, .write s [x] rest h (by simp), rfl⟩

omit [Dbg] in
/-- A reader that waits in vain has nothing whole to read. -/
theorem nothing_whole {s : State} (hr : s.reader = .reading) (hn : ¬ ∃ s', Transport.Step k s .read s') (b : Bool) :
    (Frame.readAll (⟨s.unread, b⟩ : Frame.Flat)).1 = [] := by
  rw [readAll_eq]
  cases h4 : Frame.readMsg (⟨s.unread, b⟩ : Frame.Flat) with
  | item m r =>
    exfalso; apply hn
    obtain ⟨r, b'⟩ := r
    refine ⟨_, .read _ (.item m ⟨r, s.inEnd.getD false⟩) hr ?_⟩
    have h5 := fun more c => readMsg_extension h4 more c
    unfold Settled
    cases he : s.inEnd with
    | none => exact h5
    | some b => simpa using h5 [] b
  | _ => rfl

omit [FloatText] in
theorem ended_ok {ms : List Message} (h : (feed process .start ms).1 = .ended (.ok ())) :
    Message.notification .exit ∈ ms := by
  have key : ∀ (ms : List Message) a, toSend a = none → a ≠ .ended (.ok ()) →
      (feed process a ms).1 = .ended (.ok ()) → Message.notification .exit ∈ ms := by
    intro ms
    induction ms with
    | nil => intro a _ h1 h2; exact absurd h2 h1
    | cons m ms ih =>
      intro a ha h1 h2
      by_cases hx : (round process a m).1 = .ended (.ok ())
      · have : m = .notification .exit := by
          unfold round at hx
          split at hx
          · rename_i x hx'
            exfalso
            revert hx
            generalize onRecv process a (some m) = y at hx'
            cases y <;> simp_all [toSend, onSent]
          · cases a <;> simp [toSend] at ha <;> simp only [onRecv] at hx
            · split at hx <;> simp_all
              split at hx <;> simp_all
            · split at hx <;> simp_all
            · split at hx <;> simp_all
            · split at hx <;> simp_all
            · simp_all
        simp [this]
      · exact List.mem_cons_of_mem _ (ih _ (round_toSend a m) hx h2)
  exact key ms .start rfl (by simp) h

/-- C71: a process that can go no further has exited, or it is waiting for input, has received every message that has
arrived in full, and has written all its answers. -/
theorem C71_nothing_pending {p : Proc} {as : List Session.Act} (h : Session.Steps k process {} as p)
    (hw : Session.Act.writeFails ∉ as) (hq : Quiet k process p) :
    (∃ b, p.exit = some b) ∨
    (p.app.receives = true ∧ p.io.inEnd = none ∧
      (∀ bs ms rest, p.io.arrived = bs ++ rest → Spec.Carries bs ms → ms <+: p.io.delivered) ∧
      p.io.out = (Spec.answers process p.io.delivered).flatMap Frame.write) := by
  have hr := proc_reachable h
  have hne := no_fail h hw
  obtain ⟨hs, ha, hg, hx⟩ := mainInv h
  have hat := ha hne
  have hwi := writeInv hr
  cases hex : p.exit with
  | some b => exact .inl ⟨b, rfl⟩
  | none =>
  right
  have no_thread : ∀ {a s'}, Transport.Step k p.io a s' → kindOf a = some .thread → False := by
    intro a s' h1 h2
    rcases hq _ _ (.io hex h1 h2) with h | h <;> cases h
  have no_writing : ∀ rest, p.io.writer ≠ .writing rest := by
    intro rest hwr
    obtain ⟨a, s', h1, h2⟩ := writer_moves (k := k) hwr
    exact no_thread h1 h2
  have not_failed : p.io.writer = .idle ∨ p.io.writer = .done := by
    cases hwr : p.io.writer with
    | idle => exact .inl rfl
    | done => exact .inr rfl
    | writing rest => exact absurd hwr (no_writing rest)
    | failed => simp only [WriteInv, hwr] at hwi; rw [hwr, hwi.1] at hne; exact absurd rfl hne
    | panicked => simp only [WriteInv, hwr] at hwi; rw [hwr, hwi.1] at hne; exact absurd rfl hne
  have idle : (∀ r, p.app ≠ .ended r) → p.io.writer = .idle := by
    intro hn
    rcases not_failed with h1 | h1
    · exact h1
    · obtain ⟨r, h⟩ := hg (.inr (C54_drained hr h1).1)
      exact absurd h (hn r)
  cases ht : toSend p.app with
  | some m =>
    exfalso
    have hn : ∀ r, p.app ≠ .ended r := by intro r h; rw [h] at ht; cases ht
    have htx : p.io.txAlive = true := by
      cases h1 : p.io.txAlive with
      | true => rfl
      | false => obtain ⟨r, h⟩ := hg (.inr h1); exact absurd h (hn r)
    rcases hq _ _ (.send hex ht (.accept _ m (idle hn) htx)) with h | h <;> cases h
  | none =>
  rcases rests ht with hrec | ⟨r, hend⟩
  · have hn : ∀ r, p.app ≠ .ended r := by intro r h; rw [h] at hrec; cases hrec
    have hrx : p.io.rxAlive = true := by
      cases h1 : p.io.rxAlive with
      | true => rfl
      | false => obtain ⟨r, h⟩ := hg (.inl h1); exact absurd h (hn r)
    have hread : p.io.reader = .reading := by
      have closed : p.io.reader.ended = true → False := by
        intro h1
        rcases hq _ _ (.closed hex hrec h1) with h | h <;> cases h
      cases hrd : p.io.reader with
      | reading => rfl
      | sending m => rcases hq _ _ (.recv hex hrec (.deliver _ m hrd hrx)) with h | h <;> cases h
      | _ => exact (closed (by rw [hrd]; rfl)).elim
    have hno : ¬ ∃ s', Transport.Step k p.io .read s' := fun ⟨s', h1⟩ => no_thread h1 rfl
    have hin : p.io.inEnd = none := by
      cases he : p.io.inEnd with
      | none => rfl
      | some b =>
        exact absurd ⟨_, .read _ (Frame.readMsg (⟨p.io.unread, b⟩ : Frame.Flat)) hread (by simp [Settled, he])⟩ hno
    refine ⟨hrec, hin, ?_, ?_⟩
    · intro bs ms rest hb hc
      obtain ⟨⟨used, ps, hu, hp, hc'⟩, _, _⟩ := (readInv hr).1
      simp only [Spec.Pending, hread] at hp
      subst hp
      rw [List.append_nil] at hc'
      have e1 := readAll_carries hc rest false
      rw [← hb, hu, readAll_carries hc', nothing_whole hread hno] at e1
      simp only [List.append_nil, Prod.mk.injEq] at e1
      rw [e1.1]
      exact List.prefix_append _ _
    · simp only [WriteInv, idle hn] at hwi
      rw [hwi, answers_eq]
      cases hat with
      | rest _ h2 => rw [h2]
      | sending h1 _ _ => rw [ht] at h1; cases h1
      | closed h1 h2 _ _ _ =>
        obtain ⟨r, h9⟩ := onRecv_none (process := process) h1
        exact absurd (h2.trans h9) (hn r)
      | late _ h2 _ _ => exact absurd h2 (hn _)
  · exfalso
    have hrx : p.io.rxAlive = false := by
      cases h1 : p.io.rxAlive with
      | false => rfl
      | true => rcases hq _ _ (.dropRx hex hend h1) with h | h <;> cases h
    have htx : p.io.txAlive = false := by
      cases h1 : p.io.txAlive with
      | false => rfl
      | true => rcases hq _ _ (.dropTx hex hend h1) with h | h <;> cases h
    have hwd : p.io.writer = .done := by
      rcases not_failed with h1 | h1
      · exact (no_thread (.close _ h1 htx) rfl).elim
      · exact h1
    by_cases hok : r = .ok ()
    · subst hok
      have hrd : p.io.reader.ended = true := by
        cases hat with
        | rest h1 _ =>
          rw [hend] at h1
          rw [(C52_exit hr (ended_ok h1.symm)).1]; rfl
        | sending h1 _ _ => rw [ht] at h1; cases h1
        | closed _ _ h3 _ _ => exact h3
        | late _ h2 _ _ => rw [hend] at h2; cases h2
      have hj : join k p.io ≠ .waiting := by
        unfold join
        rw [hwd]
        cases hrd' : p.io.reader with
        | reading => rw [hrd'] at hrd; cases hrd
        | sending m => rw [hrd'] at hrd; cases hrd
        | done => simp
        | failed => simp
        | panicked => simp [Writer.ended]
      rcases hq _ _ (.finish hex hend hrx htx hj) with h | h <;> cases h
    · rcases hq _ _ (.abort hex hend hok hrx htx) with h | h <;> cases h

/-! ### Every run comes to rest -/

/-- What is left to be done, in two parts: with what has been read and received; with what is to be written. -/
def work (p : Proc) : Nat × Nat :=
  (10 * p.io.unread.length +
    (match p.io.reader with | .reading => 3 | .sending _ => 6 | _ => 0) +
    (match p.app with
      | .start | .confirming | .idle | .leaving => 1
      | .refusing _ | .replying _ _ | .answering _ | .stopping _ => 2
      | .ended _ => 0) +
    p.io.rxAlive.toNat + p.io.txAlive.toNat + p.exit.isNone.toNat,
   workLeft p.io.writer)

omit [Ext] [Dbg] [FloatText] in
theorem frame_nonempty {f : Bytes} {cs : List Char} (h : Spec.IsFrame f cs) : 0 < f.length := by
  obtain ⟨hs, _, _, rfl⟩ := h
  simp [Spec.blank]
  omega

theorem work_decreases {p q : Proc} {a : Session.Act} (h : Session.Step k process p a q) (ha : a ≠ .peer) :
    Prod.Lex (· < ·) (· < ·) (work q) (work p) := by
  cases h with
  | io h1 h2 h3 =>
    cases h2 with
    | arrive bs _ => simp [kindOf] at h3; exact absurd h3.symm ha
    | hangUp b _ => simp [kindOf] at h3; exact absurd h3.symm ha
    | read r hr hs =>
      left
      cases r with
      | item m rest =>
        obtain ⟨f, cs, j, hf, _, _, _, hu⟩ := settled_item hs
        have := frame_nonempty hf
        simp only [afterRead, hr, hu, List.length_append]
        omega
      | _ => cases k <;> simp only [afterRead, readError, hr] <;> omega
    | deliver m _ _ => simp [kindOf] at h3
    | undeliverable m hr _ => left; simp only [hr]; omega
    | dropRx => simp [kindOf] at h3
    | accept m _ _ => simp [kindOf] at h3
    | write a b hw hne =>
      have : 0 < a.length := by cases a <;> simp_all
      refine (Prod.lex_def).2 (.inr ⟨rfl, ?_⟩)
      simp only [work, workLeft, hw, List.length_append]
      omega
    | written hw =>
      refine (Prod.lex_def).2 (.inr ⟨rfl, ?_⟩)
      simp [work, workLeft, hw]
    | writeFails b hw =>
      refine (Prod.lex_def).2 (.inr ⟨rfl, ?_⟩)
      cases k <;> simp [work, workLeft, hw, writeError]
    | dropTx => simp [kindOf] at h3
    | close hw _ =>
      refine (Prod.lex_def).2 (.inr ⟨rfl, ?_⟩)
      simp [work, workLeft, hw]
  | @recv m _ h1 h2 h3 =>
    cases h3 with
    | deliver _ hr hx =>
      left
      simp only [hr, afterSend]
      generalize onRecv process p.app (some m) = y
      cases happ : p.app <;> simp [happ, App.receives] at h2 <;> cases y <;> cases isExit m <;> simp <;> omega
  | closed h1 h2 h3 =>
    left
    obtain ⟨r, h4⟩ := onRecv_none (process := process) h2
    simp only [h4]
    cases happ : p.app <;> simp [happ, App.receives] at h2 <;> simp
  | send h1 h2 h3 =>
    cases h3 with
    | accept _ hw hx =>
      left
      cases happ : p.app <;> simp [happ, toSend] at h2 <;> simp [onSent]
  | unsent h1 h2 h3 =>
    left
    cases happ : p.app <;> simp [happ, toSend] at h2 <;> simp [onSent]
  | timeout h1 h2 => left; simp [h2]
  | dropRx h1 h2 h3 => left; simp [h3]
  | dropTx h1 h2 h3 => left; simp [h3]
  | abort h1 h2 h3 h4 h5 => left; simp [h1]
  | finish h1 h2 h3 h4 h5 => left; simp [h1]

/-- C72: there is no infinite run without input: between two arrivals of bytes the process comes to rest. -/
theorem C72_terminates (k : Kind) (process : InitializeBuild → Option Value) :
    WellFounded fun q p : Proc => ∃ a, a ≠ .peer ∧ Session.Step k process p a q :=
  Subrelation.wf (fun ⟨_, ha, h⟩ => work_decreases h ha)
    (InvImage.wf work (Prod.lex ⟨_, Nat.lt_wfRel.wf⟩ ⟨_, Nat.lt_wfRel.wf⟩).wf)

theorem steps_cons {p q r : Proc} {a : Session.Act} {as : List Session.Act}
    (h1 : Session.Step k process p a q) (h2 : Session.Steps k process q as r) : Session.Steps k process p (a :: as) r := by
  induction h2 with
  | nil => exact Session.Steps.snoc (.nil _) h1
  | snoc _ h4 ih => exact Session.Steps.snoc ih h4

theorem steps_append {p q r : Proc} {as bs : List Session.Act} (h1 : Session.Steps k process p as q)
    (h2 : Session.Steps k process q bs r) : Session.Steps k process p (as ++ bs) r := by
  induction h2 with
  | nil => simpa using h1
  | snoc _ h4 ih => rw [← List.append_assoc]; exact .snoc ih h4

/-- C72: from wherever it is, the process can come to rest by itself: without input, without waiting for the time
limit and without a failing write. -/
theorem C72_settles (k : Kind) (process : InitializeBuild → Option Value) (p : Proc) :
    ∃ as q, Session.Steps k process p as q ∧ Quiet k process q ∧
      ∀ a ∈ as, a ≠ .peer ∧ a ≠ .timeout ∧ a ≠ .writeFails := by
  refine (C72_terminates k process).induction (C := fun p => ∃ as q, Session.Steps k process p as q ∧
    Quiet k process q ∧ ∀ a ∈ as, a ≠ .peer ∧ a ≠ .timeout ∧ a ≠ .writeFails) p ?_
  intro p ih
  by_cases hq : Quiet k process p
  · exact ⟨[], p, .nil p, hq, by simp⟩
  have : ∃ a q, Session.Step k process p a q ∧ a ≠ .peer ∧ a ≠ .timeout ∧ a ≠ .writeFails := by
    simp only [Quiet, Classical.not_forall, not_or] at hq
    obtain ⟨a, q, h1, h2, h3⟩ := hq
    by_cases ha : a = .writeFails
    · subst ha
      cases h1 with
      | io hx hs hk =>
        cases hs with
        | writeFails b hw =>
          obtain ⟨a, s', h4, h5⟩ := writer_moves (k := k) hw
          exact ⟨_, _, .io hx h4 h5, by simp, by simp, by simp⟩
        | _ => simp [kindOf] at hk
    · exact ⟨a, q, h1, h2, h3, ha⟩
  obtain ⟨a, q, h1, h2⟩ := this
  obtain ⟨as, r, h3, h4, h5⟩ := ih q ⟨a, h2.1, h1⟩
  refine ⟨a :: as, r, steps_cons h1 h3, h4, ?_⟩
  intro b hb
  rcases List.mem_cons.1 hb with rfl | hb
  · exact h2
  · exact h5 b hb

/-! ### Whole sessions -/

/-- What a process has sent in a session: refusals of the early requests, the value of the handler in answer to
build/initialize, and replies to the later requests. -/
def Spec.Served (early : List Request) (id : RequestId) (v : Value) (later : List Request) (ms : List Message) : Prop :=
  ∃ refs rs, ms = refs ++ [.response ⟨id, some v, none⟩] ++ rs ∧ Spec.Refusals early refs ∧ Spec.Replies later rs

omit [FloatText] in
theorem feed_early {early : List Request} (he : ∀ r ∈ early, Spec.Early r) :
    feed process .start (early.map .request) = (.start, early.map refusal) := by
  induction early with
  | nil => rfl
  | cons r rs ih =>
    have h1 : onRecv process .start (some (.request r)) = .refusing r := by
      cases r with
      | initializeBuild i p => exact absurd rfl (he _ (by simp) i p)
      | _ => rfl
    have h2 : round process .start (.request r) = (.start, [refusal r]) := by
      unfold round; rw [h1]; rfl
    simp only [List.map_cons, feed, h2, ih (fun r h => he r (by simp [h]))]
    rfl

omit [FloatText] in
theorem feed_pre {pre : List Message} (hn : Spec.NoShutdown pre) :
    feed process .idle pre = (.idle, (Spec.requests pre).map reply) := by
  induction pre with
  | nil => rfl
  | cons m ms ih =>
    have ih := ih (fun id h => hn id (by simp [h]))
    cases m with
    | request r =>
      have h1 : onRecv process .idle (some (.request r)) = .answering r := by
        cases r with
        | shutdown i => exact absurd (by simp) (hn i)
        | _ => rfl
      have h2 : round process .idle (.request r) = (.idle, [reply r]) := by
        unfold round; rw [h1]; rfl
      simp only [feed, h2, ih, Spec.requests]
      rfl
    | response r =>
      have h2 : round process .idle (.response r) = (.idle, []) := rfl
      simp only [feed, h2, ih, Spec.requests]
      rfl
    | notification r =>
      have h2 : round process .idle (.notification r) = (.idle, []) := rfl
      simp only [feed, h2, ih, Spec.requests]
      rfl

/-- The messages of a session up to the shutdown request or the end of the input. -/
def Spec.session (early : List Request) (id : RequestId) (ip : InitializeBuild) (pre : List Message) : List Message :=
  early.map .request ++ .request (.initializeBuild id ip) :: .notification .initialized :: pre

omit [FloatText] in
theorem feed_session {early : List Request} {id : RequestId} {ip : InitializeBuild} {v : Value} {pre : List Message}
    (he : ∀ r ∈ early, Spec.Early r) (hv : process ip = some v) (hn : Spec.NoShutdown pre) :
    feed process .start (Spec.session early id ip pre) =
      (.idle, early.map refusal ++ [.response ⟨id, some v, none⟩] ++ (Spec.requests pre).map reply) := by
  have h1 : round process .start (.request (.initializeBuild id ip)) = (.confirming, [.response ⟨id, some v, none⟩]) := by
    have : onRecv process .start (some (.request (.initializeBuild id ip))) = .replying id v := by
      simp [onRecv, hv]
    unfold round
    rw [this]; rfl
  have h2 : round process .confirming (.notification .initialized) = (.idle, []) := rfl
  simp only [Spec.session, feed_append, feed_early he, feed, h1, h2, feed_pre hn]
  simp

omit [FloatText] in
theorem feed_alive {ms all : List Message} (h : ms <+: all) (ha : ∀ r, (feed process .start all).1 ≠ .ended r) :
    ∀ r, (feed process .start ms).1 ≠ .ended r := by
  intro r hr
  obtain ⟨t, rfl⟩ := h
  rw [feed_append, hr, feed_ended] at ha
  exact ha r rfl

omit [FloatText] in
theorem feed_stays {ms all : List Message} (h : ms <+: all) (ha : (feed process .start all).1 = .idle) :
    (feed process .start ms).1 ≠ .leaving := by
  intro hr
  obtain ⟨t, rfl⟩ := h
  rw [feed_append, hr] at ha
  cases t with
  | nil => cases ha
  | cons m t =>
    have : ∃ r, (round process .leaving m).1 = .ended r := by
      have : ∃ r, onRecv process .leaving (some m) = .ended r := by
        simp only [onRecv]
        split <;> simp_all
      obtain ⟨r, h2⟩ := this
      exact ⟨r, by unfold round; rw [h2]; rfl⟩
    obtain ⟨r, h1⟩ := this
    simp only [feed, h1, feed_ended] at ha
    cases ha

/-- A process at rest, or exited, has received all the messages before which it has no reason to end. -/
theorem delivers_all {p : Proc} {as : List Session.Act} (h : Session.Steps k process {} as p)
    (hw : Session.Act.writeFails ∉ as) (hq : Quiet k process p)
    {bs rest : Bytes} {all : List Message} (hb : p.io.arrived = bs ++ rest) (hc : Spec.Carries bs all)
    (ht : Session.Act.timeout ∈ as → ∀ ms, ms <+: all → (feed process .start ms).1 ≠ .leaving)
    (hp : ∀ ms m, ms ++ [m] <+: all → Message.notification .exit ∉ ms ∧ ∀ r, (feed process .start ms).1 ≠ .ended r) :
    all <+: p.io.delivered := by
  have hr := proc_reachable h
  by_cases hall : all <+: p.io.delivered
  · exact hall
  exfalso
  have hd : ∃ m, p.io.delivered ++ [m] <+: all := by
    have h1 := C51_prefix hr [] false
    rw [List.append_nil, hb, readAll_carries hc] at h1
    have h2 : p.io.delivered <+: all := by
      rcases List.prefix_or_prefix_of_prefix h1 (List.prefix_append all _) with h | h
      · exact h
      · exact absurd h hall
    obtain ⟨t, ht⟩ := h2
    cases t with
    | nil => rw [List.append_nil] at ht; exact absurd (by rw [ht]; exact List.prefix_rfl) hall
    | cons m t => exact ⟨m, t, by rw [← ht]; simp⟩
  obtain ⟨m, hm⟩ := hd
  obtain ⟨hx, hn⟩ := hp _ m hm
  rcases C71_nothing_pending h hw hq with ⟨b, he⟩ | ⟨_, _, h1, _⟩
  · obtain ⟨_, r, hr1, _⟩ := (mainInv h).exits b he
    cases (mainInv h).at' (no_fail h hw) with
    | rest h1 _ => exact hn r (by rw [← h1, hr1])
    | sending h1 _ _ => rw [hr1] at h1; cases h1
    | late h2 _ h3 _ => exact ht h3 _ ((List.prefix_append _ _).trans hm) h2
    | closed _ _ _ h3 _ =>
      rcases h3 with h3 | ⟨stop, h3⟩
      · exact hx h3
      · have key : ∀ b, Frame.readAll (⟨p.io.arrived, b⟩ : Frame.Flat) ≠ (p.io.delivered, stop) := by
          intro b h4
          rw [hb, readAll_carries hc] at h4
          have := congrArg (·.1) h4
          simp only at this
          exact hall (this ▸ List.prefix_append _ _)
        unfold Spec.Input at h3
        split at h3
        · exact key _ h3
        · exact key false (by simpa using h3 [] false)
  · exact hall (h1 bs all rest hb hc)

/-- Once the main thread has ended well, the reader has too, and no write has failed, a process at rest has exited
with success and has written everything. -/
theorem success {p : Proc} {as : List Session.Act} (h : Session.Steps k process {} as p)
    (hw : Session.Act.writeFails ∉ as) (hq : Quiet k process p) (ha : p.app = .ended (.ok ()))
    (hd : p.io.reader = .done) : p.exit = some true ∧ p.io.out = p.io.accepted.flatMap Frame.write := by
  have hr := proc_reachable h
  rcases C71_nothing_pending h hw hq with ⟨b, he⟩ | ⟨h1, _⟩
  · obtain ⟨_, r, h1, h2⟩ := (mainInv h).exits b he
    rw [ha] at h1
    injection h1 with h1
    subst h1
    rcases h2 with ⟨h2, _⟩ | ⟨_, h2, h3⟩
    · exact absurd rfl h2
    · have hdone : p.io.writer = .done := by
        have hne := no_fail h hw
        have hwi := writeInv hr
        unfold join at h2
        rw [hd] at h2
        cases hwr : p.io.writer with
        | idle => simp [hwr] at h2
        | writing rest => simp [hwr] at h2
        | done => rfl
        | failed => simp only [WriteInv, hwr] at hwi; rw [hwr, hwi.1] at hne; exact absurd rfl hne
        | panicked => simp only [WriteInv, hwr] at hwi; rw [hwr, hwi.1] at hne; exact absurd rfl hne
      rw [he, h3, C58_ok_iff.2 ⟨hd, hdone⟩]
      exact ⟨rfl, (C54_drained hr hdone).2⟩
  · rw [ha] at h1; cases h1

/-- C73: a client sends any requests before build/initialize, then build/initialize, the initialized notification, any
messages, the shutdown request and the exit notification, in whatever pieces and with whatever afterwards.  If no
write fails and the exit notification is not late, the process, once it can go no further, has exited with success and
has written exactly one answer to each request, in order, each in its own frame, and nothing else. -/
theorem C73_session {p : Proc} {as : List Session.Act} (h : Session.Steps k process {} as p)
    (hw : Session.Act.writeFails ∉ as) (ht : Session.Act.timeout ∉ as) (hq : Quiet k process p)
    {bs rest : Bytes} {early : List Request} {id sid : RequestId} {ip : InitializeBuild} {v : Value}
    {pre : List Message} (hb : p.io.arrived = bs ++ rest)
    (hc : Spec.Carries bs (Spec.session early id ip pre ++ [.request (.shutdown sid), .notification .exit]))
    (he : ∀ r ∈ early, Spec.Early r) (hv : process ip = some v) (hn : Spec.NoShutdown pre)
    (hx : Message.notification .exit ∉ pre) :
    p.exit = some true ∧
    ∃ ms, Spec.Served early id v (Spec.requests pre) ms ∧
      p.io.out = (ms ++ [Message.response ⟨sid, some Value.null, none⟩]).flatMap Frame.write := by
  have hr := proc_reachable h
  have hfs := feed_session (id := id) he hv hn
  have r1 : round process .idle (.request (.shutdown sid)) = (.leaving, [.response ⟨sid, some Value.null, none⟩]) := rfl
  have r2 : round process .leaving (.notification .exit) = (.ended (.ok ()), []) := rfl
  have hsx : Message.notification .exit ∉ Spec.session early id ip pre := by simp [Spec.session, hx]
  have e : Spec.session early id ip pre ++ [.request (.shutdown sid), .notification .exit] =
      (Spec.session early id ip pre ++ [.request (.shutdown sid)]) ++ [.notification .exit] := by simp
  have hd := delivers_all h hw hq hb hc (fun h => absurd h ht) (by
    intro ms m hm
    have h1 : ms <+: Spec.session early id ip pre ++ [.request (.shutdown sid)] := by
      rw [e] at hm
      rcases List.prefix_concat_iff.1 hm with h1 | h1
      · rw [(List.append_inj' h1 rfl).1]; exact List.prefix_rfl
      · exact (List.prefix_append ms [m]).trans h1
    refine ⟨fun h2 => ?_, feed_alive h1 ?_⟩
    · have := h1.subset h2
      simp [hsx] at this
    · intro r; rw [feed_append, hfs]; simp [feed, r1])
  have hdx : Message.notification .exit ∈ p.io.delivered := hd.subset (by simp)
  obtain ⟨hdone, ⟨ms, h1, h2⟩, _⟩ := C52_exit hr hdx
  have hall : p.io.delivered =
      Spec.session early id ip pre ++ [.request (.shutdown sid), .notification .exit] := by
    rw [h1] at hd ⊢
    rcases List.prefix_concat_iff.1 hd with h3 | h3
    · exact h3.symm
    · exact absurd (h3.subset (by simp)) h2
  have hat := (mainInv h).at' (no_fail h hw)
  rw [hall, feed_append, hfs] at hat
  simp only [feed, r1, r2] at hat
  have hfin : p.app = .ended (.ok ()) ∧ p.io.accepted = early.map refusal ++ [.response ⟨id, some v, none⟩] ++
      (Spec.requests pre).map reply ++ [.response ⟨sid, some Value.null, none⟩] := by
    cases hat with
    | rest h3 h4 => exact ⟨h3, by rw [h4]; simp⟩
    | sending h3 h4 _ => exfalso; revert h3 h4; cases p.app <;> simp [toSend, onSent]
    | closed h3 _ _ _ _ => cases h3
    | late h3 _ _ _ => cases h3
  obtain ⟨h3, h4⟩ := success h hw hq hfin.1 hdone
  refine ⟨h3, _, ⟨_, _, rfl, refusals _, replies _⟩, ?_⟩
  rw [h4, hfin.2]

theorem steps_arrived {p q : Proc} {as : List Session.Act} (h : Session.Steps k process p as q)
    (hp : Session.Act.peer ∉ as) : q.io.arrived = p.io.arrived ∧ q.io.inEnd = p.io.inEnd := by
  induction h with
  | nil => exact ⟨rfl, rfl⟩
  | snoc _ h2 ih =>
    simp only [List.mem_append, List.mem_singleton, not_or] at hp
    have ih := ih hp.1
    cases h2 with
    | io _ hs hk =>
      cases hs with
      | arrive _ _ => simp [kindOf] at hk; exact absurd hk hp.2
      | hangUp _ _ => simp [kindOf] at hk; exact absurd hk hp.2
      | read r _ _ => cases r <;> exact ih
      | _ => exact ih
    | recv _ _ hs => cases hs with | deliver _ _ _ => exact ih
    | send _ _ hs => cases hs with | accept _ _ _ => exact ih
    | _ => exact ih

/-- C73: whatever the process has done so far, once the messages of the session have arrived it needs no more input,
and no luck, to get there: there is a continuation, and by C72 there is no infinite one. -/
theorem C73_reached {p : Proc} {as : List Session.Act} (h : Session.Steps k process {} as p)
    (hw : Session.Act.writeFails ∉ as) (ht : Session.Act.timeout ∉ as)
    {bs rest : Bytes} {early : List Request} {id sid : RequestId} {ip : InitializeBuild} {v : Value}
    {pre : List Message} (hb : p.io.arrived = bs ++ rest)
    (hc : Spec.Carries bs (Spec.session early id ip pre ++ [.request (.shutdown sid), .notification .exit]))
    (he : ∀ r ∈ early, Spec.Early r) (hv : process ip = some v) (hn : Spec.NoShutdown pre)
    (hx : Message.notification .exit ∉ pre) :
    ∃ as' q, Session.Steps k process p as' q ∧ Session.Act.peer ∉ as' ∧ q.exit = some true ∧
    ∃ ms, Spec.Served early id v (Spec.requests pre) ms ∧
      q.io.out = (ms ++ [Message.response ⟨sid, some Value.null, none⟩]).flatMap Frame.write := by
  obtain ⟨as', q, h1, h2, h3⟩ := C72_settles k process p
  refine ⟨as', q, h1, fun h => (h3 _ h).1 rfl, ?_⟩
  refine C73_session (steps_append h h1) (fun h => ?_) (fun h => ?_) h2 (rest := rest)
    (by rw [(steps_arrived h1 (fun h => (h3 _ h).1 rfl)).1, hb]) hc he hv hn hx
  · rcases List.mem_append.1 h with h | h
    · exact hw h
    · exact (h3 _ h).2.2 rfl
  · rcases List.mem_append.1 h with h | h
    · exact ht h
    · exact (h3 _ h).2.1 rfl

/-- C74: if instead the client closes the connection after any such messages (without shutdown), the process, once it
can go no further, has exited with success and has written exactly one answer to each request. -/
theorem C74_hang_up {p : Proc} {as : List Session.Act} (h : Session.Steps k process {} as p)
    (hw : Session.Act.writeFails ∉ as) (hq : Quiet k process p)
    {early : List Request} {id : RequestId} {ip : InitializeBuild} {v : Value} {pre : List Message}
    (hi : p.io.inEnd = some false) (hc : Spec.Carries p.io.arrived (Spec.session early id ip pre))
    (he : ∀ r ∈ early, Spec.Early r) (hv : process ip = some v) (hn : Spec.NoShutdown pre)
    (hx : Message.notification .exit ∉ pre) :
    p.exit = some true ∧
    ∃ ms, Spec.Served early id v (Spec.requests pre) ms ∧ p.io.out = ms.flatMap Frame.write := by
  have hr := proc_reachable h
  have hfs := feed_session (id := id) he hv hn
  have hsx : Message.notification .exit ∉ Spec.session early id ip pre := by simp [Spec.session, hx]
  have hb : p.io.arrived = p.io.arrived ++ [] := by simp
  have hd := delivers_all h hw hq hb hc (fun _ ms hm => feed_stays hm (by rw [hfs])) (by
    intro ms m hm
    have h1 := (List.prefix_append ms [m]).trans hm
    exact ⟨fun h2 => hsx (h1.subset h2), feed_alive h1 (by rw [hfs]; simp)⟩)
  have hra : ∀ b, Frame.readAll (⟨p.io.arrived, b⟩ : Frame.Flat) =
      (Spec.session early id ip pre, if b then .ioError else .eof) := by
    intro b
    have h1 := readAll_carries hc [] b
    rw [List.append_nil] at h1
    rw [h1, readAll_eq]
    cases b <;> simp [readMsg_nil.1, readMsg_nil.2]
  have hall : p.io.delivered = Spec.session early id ip pre := by
    have h1 := C51_prefix hr [] false
    rw [List.append_nil, hra] at h1
    exact (h1.eq_of_length_le hd.length_le)
  have hnx : ¬ Message.notification .exit ∈ p.io.delivered := hall ▸ hsx
  have hinp : ∀ {stop}, Spec.Input p.io p.io.delivered stop → stop = .eof := by
    intro stop h1
    simp only [Spec.Input, hi, hra] at h1
    exact (congrArg (·.2) h1).symm
  have hat := (mainInv h).at' (no_fail h hw)
  rw [hall, hfs] at hat
  have hex : ∃ b, p.exit = some b := by
    rcases C71_nothing_pending h hw hq with h1 | ⟨_, h1, _⟩
    · exact h1
    · rw [hi] at h1; cases h1
  obtain ⟨b, hex⟩ := hex
  obtain ⟨_, r, h1, _⟩ := (mainInv h).exits b hex
  have hfin : p.app = .ended (.ok ()) ∧ p.io.reader.ended = true ∧
      p.io.accepted = early.map refusal ++ [.response ⟨id, some v, none⟩] ++ (Spec.requests pre).map reply := by
    cases hat with
    | rest h3 _ => rw [h1] at h3; cases h3
    | sending h3 _ _ => rw [h1] at h3; cases h3
    | closed _ h3 h4 _ h5 => exact ⟨h3, h4, h5⟩
    | late h3 _ _ _ => cases h3
  have hdone : p.io.reader = .done := by
    cases hrd : p.io.reader with
    | done => rfl
    | reading => have := hfin.2.1; rw [hrd] at this; cases this
    | sending m => have := hfin.2.1; rw [hrd] at this; cases this
    | failed =>
      obtain ⟨_, stop, h2, h3⟩ := C55_error hr hrd
      rw [hinp h3] at h2; cases h2
    | panicked =>
      exfalso
      rcases C55_panic hr hrd with ⟨_, m, used, h2, h3⟩ | ⟨_, stop, h2, h3⟩ | h3
      · have h4 := readAll_carries h3 p.io.unread false
        rw [← h2, hra, hall] at h4
        have := congrArg (·.1.length) h4
        simp at this
      · rw [hinp h3] at h2; cases h2
      · cases hinp h3
  obtain ⟨h3, h4⟩ := success h hw hq hfin.1 hdone
  refine ⟨h3, _, ⟨_, _, rfl, refusals _, replies _⟩, ?_⟩
  rw [h4, hfin.2.2]

/-- C74: as long as the connection is open, no shutdown is requested and no write fails, the process does not end, and
once it can go no further for now it has written exactly one answer to each request. -/
theorem C74_stays {p : Proc} {as : List Session.Act} (h : Session.Steps k process {} as p)
    (hw : Session.Act.writeFails ∉ as)
    {early : List Request} {id : RequestId} {ip : InitializeBuild} {v : Value} {pre : List Message}
    (hi : p.io.inEnd = none) (hc : Spec.Carries p.io.arrived (Spec.session early id ip pre))
    (he : ∀ r ∈ early, Spec.Early r) (hv : process ip = some v) (hn : Spec.NoShutdown pre)
    (hx : Message.notification .exit ∉ pre) :
    p.exit = none ∧ (Quiet k process p →
      ∃ ms, Spec.Served early id v (Spec.requests pre) ms ∧ p.io.out = ms.flatMap Frame.write) := by
  have hr := proc_reachable h
  have hfs := feed_session (id := id) he hv hn
  have hsx : Message.notification .exit ∉ Spec.session early id ip pre := by simp [Spec.session, hx]
  have hra : ∀ b, Frame.readAll (⟨p.io.arrived, b⟩ : Frame.Flat) =
      (Spec.session early id ip pre, if b then .ioError else .eof) := by
    intro b
    have h1 := readAll_carries hc [] b
    rw [List.append_nil] at h1
    rw [h1, readAll_eq]
    cases b <;> simp [readMsg_nil.1, readMsg_nil.2]
  have hd : p.io.delivered <+: Spec.session early id ip pre := by
    have h1 := C51_prefix hr [] false
    rwa [List.append_nil, hra] at h1
  have hex : p.exit = none := by
    cases hex : p.exit with
    | none => rfl
    | some b =>
      exfalso
      obtain ⟨_, r, h1, _⟩ := (mainInv h).exits b hex
      cases (mainInv h).at' (no_fail h hw) with
      | rest h3 _ => exact feed_alive hd (by rw [hfs]; simp) r (by rw [← h3, h1])
      | sending h3 _ _ => rw [h1] at h3; cases h3
      | late h3 _ _ _ => exact feed_stays hd (by rw [hfs]) h3
      | closed _ _ _ h3 _ =>
        rcases h3 with h3 | ⟨stop, h3⟩
        · exact hsx (hd.subset h3)
        · simp only [Spec.Input, hi] at h3
          have h4 := h3 [] false
          have h5 := h3 [] true
          rw [List.append_nil, hra] at h4 h5
          have := (congrArg (·.2) h4).trans (congrArg (·.2) h5).symm
          simp at this
  refine ⟨hex, fun hq => ?_⟩
  rcases C71_nothing_pending h hw hq with ⟨b, h1⟩ | ⟨_, _, h1, h2⟩
  · rw [hex] at h1; cases h1
  · have hall : p.io.delivered = Spec.session early id ip pre :=
      hd.eq_of_length_le (h1 _ _ [] (by simp) hc).length_le
    rw [hall, answers_eq, hfs] at h2
    exact ⟨_, ⟨_, _, rfl, refusals _, replies _⟩, h2⟩

/-- C75: a process that has exited with success has answered, in order, every request that it was to answer, in
writing; it has received the exit notification, or every message of an input that has ended between messages. -/
theorem C75_success {p : Proc} {as : List Session.Act} (h : Session.Steps k process {} as p)
    (he : p.exit = some true) :
    p.io.out = (Spec.answers process p.io.delivered).flatMap Frame.write ∧
    ((∃ ms, p.io.delivered = ms ++ [.notification .exit]) ∨
      (p.io.inEnd = some false ∧ Frame.readAll (⟨p.io.arrived, false⟩ : Frame.Flat) = (p.io.delivered, .eof))) := by
  obtain ⟨_, r, h1, h2⟩ := (mainInv h).exits true he
  rcases h2 with ⟨_, h2⟩ | ⟨h2, _, h3⟩
  · cases h2
  · subst h2
    obtain ⟨_, h5, _, h7, h8⟩ := C58_ok (proc_reachable h) (of_decide_eq_true h3.symm)
    refine ⟨?_, h8⟩
    have hat := (mainInv h).at' (by rw [h5]; cases k <;> simp [writeError])
    rw [h7, answers_eq]
    cases hat with
    | rest _ h => rw [h]
    | sending h _ _ => rw [h1] at h; cases h
    | closed _ _ _ _ h => rw [h]
    | late _ h _ _ => rw [h1] at h; cases h

/-- C76, the part that holds: if no write fails, a process that can go no further has written every message that the
main thread has sent, unless it has exited with an error.  Missing: the error exit (`C76_violated`). -/
theorem C76_partial {p : Proc} {as : List Session.Act} (h : Session.Steps k process {} as p)
    (hw : Session.Act.writeFails ∉ as) (hq : Quiet k process p) (he : p.exit ≠ some false) :
    p.io.out = p.io.accepted.flatMap Frame.write := by
  have hr := proc_reachable h
  rcases C71_nothing_pending h hw hq with ⟨b, h1⟩ | ⟨h1, _, _, h2⟩
  · cases b with
    | false => exact absurd h1 he
    | true =>
      obtain ⟨_, r, h3, h4⟩ := (mainInv h).exits true h1
      rcases h4 with ⟨_, h4⟩ | ⟨_, _, h4⟩
      · cases h4
      · exact (C58_ok hr (of_decide_eq_true h4.symm)).2.2.2.1
  · rw [h2, answers_eq]
    have hn : ∀ r, p.app ≠ .ended r := by intro r h3; rw [h3] at h1; cases h1
    cases (mainInv h).at' (no_fail h hw) with
    | rest _ h => rw [h]
    | sending h3 _ _ => rw [receives_toSend h1] at h3; cases h3
    | closed h3 h4 _ _ _ => obtain ⟨r, h5⟩ := onRecv_none (process := process) h3; exact absurd (h4.trans h5) (hn r)
    | late _ h3 _ _ => exact absurd h3 (hn _)

/-- C76, what holds however the process exits, and whether or not a write fails: every message that the main thread
has sent has been written in full, except possibly the last one; of that one the beginning at most. -/
theorem C76_all_but_last {p : Proc} {as : List Session.Act} (h : Session.Steps k process {} as p) :
    p.io.out = p.io.accepted.flatMap Frame.write ∨
    ∃ ms m sent rest, p.io.accepted = ms ++ [m] ∧ Frame.write m = sent ++ rest ∧
      p.io.out = ms.flatMap Frame.write ++ sent :=
  writeInv_split (proc_reachable h)

omit [Dbg] in
theorem carries_two {bs : Bytes} {m1 m2 : Message} (h : Spec.Carries bs [m1, m2]) :
    ∃ f1 f2, bs = f1 ++ f2 ∧
      (∀ s : State, s.reader = .reading → ∀ rest, s.unread = f1 ++ rest →
        Transport.Step k s .read { s with reader := .sending m1, unread := rest }) ∧
      (∀ s : State, s.reader = .reading → ∀ rest, s.unread = f2 ++ rest →
        Transport.Step k s .read { s with reader := .sending m2, unread := rest }) := by
  generalize hms : [m1, m2] = ms at h
  cases h with
  | nil => cases hms
  | @snoc bs ms f cs j m h1 hf hl hj hd =>
    obtain ⟨e1, e2⟩ := List.append_inj' (show [m1] ++ [m2] = ms ++ [m] from hms) rfl
    cases e2
    generalize hms' : [m1] = ms' at e1
    subst e1
    cases h1 with
    | nil => cases hms'
    | @snoc bs' ms' f' cs' j' m' h1' hf' hl' hj' hd' =>
      obtain ⟨e1, e2⟩ := List.append_inj' (show [] ++ [m1] = ms' ++ [m'] from hms') rfl
      cases e2
      subst e1
      have : bs' = [] := by
        generalize hn : ([] : List Message) = l at h1'
        cases h1' with
        | nil => rfl
        | snoc _ _ _ _ _ => simp at hn
      subst this
      refine ⟨f', f, rfl, fun s hs rest hu => ?_, fun s hs rest hu => ?_⟩
      · obtain ⟨⟨s', h3⟩, h4⟩ := C51_progress (k := k) hs hu hf' hl' hj' hd'
        rwa [h4 s' h3] at h3
      · obtain ⟨⟨s', h3⟩, h4⟩ := C51_progress (k := k) hs hu hf hl hj hd
        rwa [h4 s' h3] at h3

/-- C76: an exit with an error gives no such guarantee: although no write fails and there is no delay, an answer that
has been sent need not be written. A client that sends a request and then the exit notification, both before
build/initialize, may not see the refusal of the request. -/
theorem C76_violated {r : Request} {bs : Bytes} (hr : Spec.Early r)
    (hc : Spec.Carries bs [.request r, .notification .exit]) :
    ∃ as p, Session.Steps k process {} as p ∧ Session.Act.writeFails ∉ as ∧ Session.Act.timeout ∉ as ∧
      p.io.arrived = bs ∧ p.exit = some false ∧ Quiet k process p ∧
      (∃ m, Spec.IsRefusal r m ∧ p.io.accepted = [m]) ∧ p.io.out = [] := by
  obtain ⟨f1, f2, rfl, h1, h2⟩ := carries_two hc
  have e : onRecv process .start (some (.request r)) = .refusing r := by
    cases r with
    | initializeBuild i p => exact absurd rfl (hr i p)
    | _ => rfl
  have s1 : Session.Step k process {} .peer { io := { arrived := f1 ++ f2, unread := f1 ++ f2 } } :=
    .io rfl (.arrive _ (f1 ++ f2) rfl) rfl
  have s2 : Session.Step k process { io := { arrived := f1 ++ f2, unread := f1 ++ f2 } } .thread
      { io := { arrived := f1 ++ f2, unread := f2, reader := .sending (.request r) } } :=
    .io rfl (h1 _ rfl f2 rfl) rfl
  have s3 : Session.Step k process { io := { arrived := f1 ++ f2, unread := f2, reader := .sending (.request r) } } .main
      { io := { arrived := f1 ++ f2, unread := f2, reader := .reading, delivered := [.request r] },
        app := .refusing r } := by
    rw [← e]
    exact .recv rfl rfl (.deliver _ _ rfl rfl)
  have s4 : Session.Step k process
      { io := { arrived := f1 ++ f2, unread := f2, reader := .reading, delivered := [.request r] },
        app := .refusing r } .thread
      { io := { arrived := f1 ++ f2, unread := [], reader := .sending (.notification .exit), delivered := [.request r] },
        app := .refusing r } := .io rfl (h2 _ rfl [] (by simp)) rfl
  have s5 : Session.Step k process
      { io := { arrived := f1 ++ f2, unread := [], reader := .sending (.notification .exit), delivered := [.request r] },
        app := .refusing r } .main
      { io := { arrived := f1 ++ f2, unread := [], reader := .sending (.notification .exit), delivered := [.request r],
                accepted := [refusal r], writer := .writing (Frame.write (refusal r)) } } :=
    .send rfl rfl (.accept _ _ rfl rfl)
  have s6 : Session.Step k process
      { io := { arrived := f1 ++ f2, unread := [], reader := .sending (.notification .exit), delivered := [.request r],
                accepted := [refusal r], writer := .writing (Frame.write (refusal r)) } } .main
      { io := { arrived := f1 ++ f2, unread := [], reader := .done, delivered := [.request r, .notification .exit],
                accepted := [refusal r], writer := .writing (Frame.write (refusal r)) },
        app := onRecv process .start (some (.notification .exit)) } :=
    .recv rfl rfl (.deliver _ _ rfl rfl)
  refine ⟨_, _, steps_cons s1 (steps_cons s2 (steps_cons s3 (steps_cons s4 (steps_cons s5 (steps_cons s6
    (steps_cons (.dropRx rfl rfl rfl) (steps_cons (.dropTx rfl rfl rfl)
      (steps_cons (.abort rfl rfl (by simp) rfl rfl) (.nil _))))))))), by simp, by simp, rfl, rfl, ?_,
    ⟨_, ⟨_, rfl⟩, rfl⟩, rfl⟩
  intro a q hs
  cases hs with
  | io h _ _ => cases h
  | recv h _ _ => cases h
  | closed h _ _ => cases h
  | send h _ _ => cases h
  | unsent h _ _ => cases h
  | timeout h _ => cases h
  | dropRx h _ _ => cases h
  | dropTx h _ _ => cases h
  | abort h _ _ _ _ => cases h
  | finish h _ _ _ _ => cases h

end

/-! ### Concrete cases -/

section
variable [Ext] [FloatText]

/-- The bytes of the frames of some JSON texts. -/
def framed (js : List (Json × Message)) : Bytes := js.flatMap fun x => Frame.frame (Text.print x.1)

theorem carries_framed {js : List (Json × Message)}
    (h : ∀ x ∈ js, Spec.nest x.1 ≤ 127 ∧ Spec.Numbers x.1 ∧ (utf8 (Text.print x.1)).length ≤ 2 ^ 63 - 1 ∧
      Message.dec x.1 = some x.2) : Spec.Carries (framed js) (js.map (·.2)) := by
  have key : ∀ (js : List (Json × Message)) bs ms0, Spec.Carries bs ms0 →
      (∀ x ∈ js, Spec.nest x.1 ≤ 127 ∧ Spec.Numbers x.1 ∧ (utf8 (Text.print x.1)).length ≤ 2 ^ 63 - 1 ∧
        Message.dec x.1 = some x.2) →
      Spec.Carries (bs ++ framed js) (ms0 ++ js.map (·.2)) := by
    intro js
    induction js with
    | nil => intro bs ms0 h _; simpa [framed] using h
    | cons x js ih =>
      intro bs ms0 h0 h
      obtain ⟨h1, h2, h3, h4⟩ := h x (by simp)
      have h5 : Frame.readMsg (⟨Frame.frame (Text.print x.1), false⟩ : Frame.Flat) = .item x.2 ⟨[], false⟩ := by
        have : Frame.readText (⟨Frame.frame (Text.print x.1) ++ [], false⟩ : Frame.Flat) = .item (Text.print x.1) ⟨[], false⟩ :=
          C01_frame (Text.print x.1) h3 [] false
        rw [List.append_nil] at this
        unfold Frame.readMsg
        rw [this]
        simp [Text.parse_print h1 h2, h4]
      obtain ⟨_, f, cs, j, hf, hl, hj, hd, h6⟩ := readMsg_item_iff.1 h5
      simp only [List.append_nil] at h6
      have := ih _ _ (Spec.Carries.snoc h0 hf hl hj hd) (fun x hx => h x (by simp [hx]))
      rw [← h6] at this
      simpa [framed] using this
  simpa using key js [] [] .nil h

end

section
attribute [local instance] Ext.sample FloatText.sample Dbg.sample

/-- A request before build/initialize, the handshake, a request and a notification after it. -/
def sampleTalk : List (Json × Message) :=
  [(.obj [("id", .str "a"), ("method", .str "workspace/reload"), ("params", .null)],
      .request (.workspaceReload (.str "a"))),
   (.obj [("id", .int 1), ("method", .str "build/initialize"), ("params", .obj [("displayName", .str "c"),
        ("version", .str "1"), ("bspVersion", .str "2"), ("rootUri", .str "file:///"),
        ("capabilities", .obj [("languageIds", .arr [])])])],
      .request (.initializeBuild (.i32 1) sampleInit)),
   (.obj [("method", .str "build/initialized"), ("params", .null)], .notification .initialized),
   (.obj [("id", .int 2), ("method", .str "workspace/buildTargets"), ("params", .null)],
      .request (.workspaceBuildTargets (.i32 2))),
   (.obj [("method", .str "build/initialized"), ("params", .null)], .notification .initialized)]

/-- Shutdown and exit. -/
def sampleLeave : List (Json × Message) :=
  [(.obj [("id", .int 3), ("method", .str "build/shutdown"), ("params", .null)], .request (.shutdown (.i32 3))),
   (.obj [("method", .str "build/exit"), ("params", .null)], .notification .exit)]

set_option maxRecDepth 5000 in
theorem sampleTalk_ok : ∀ x ∈ sampleTalk ++ sampleLeave, Spec.nest x.1 ≤ 127 ∧ Spec.Numbers x.1 ∧
    (utf8 (Text.print x.1)).length ≤ 2 ^ 63 - 1 ∧ Message.dec x.1 = some x.2 := by
  intro x hx
  simp only [sampleTalk, sampleLeave, List.cons_append, List.nil_append, List.mem_cons, List.not_mem_nil, or_false] at hx
  rcases hx with rfl | rfl | rfl | rfl | rfl | rfl | rfl
  all_goals
    refine ⟨by decide, by simp [Spec.Numbers, Spec.NumbersMembers, Spec.NumbersList], by decide, by rfl⟩

theorem sampleTalk_carries : Spec.Carries (framed sampleTalk) (sampleTalk.map (·.2)) ∧
    Spec.Carries (framed (sampleTalk ++ sampleLeave)) ((sampleTalk ++ sampleLeave).map (·.2)) :=
  ⟨carries_framed fun x hx => sampleTalk_ok x (List.mem_append_left _ hx), carries_framed sampleTalk_ok⟩

/-- The handler of the examples. -/
def sampleHandler (p : InitializeBuild) : Option Value := some (.ofJson (.str p.displayName))

theorem step_arrive (k : Kind) (process : InitializeBuild → Option Value) (bs : Bytes) :
    Session.Steps k process {} [.peer] { io := { arrived := bs, unread := bs } } :=
  steps_cons (.io rfl (.arrive _ bs rfl) rfl) (.nil _)

/-- Beside C73 (and C70, C72, C75): the sample conversation, and ten bytes more, arrive at once. -/
example (k : Kind) : ∃ as p, Session.Steps k sampleHandler {} as p ∧ p.exit = some true ∧
    (∃ ms, Spec.Served [.workspaceReload (.str "a")] (.i32 1) (.ofJson (.str "c")) [.workspaceBuildTargets (.i32 2)] ms ∧
      p.io.out = (ms ++ [Message.response ⟨.i32 3, some Value.null, none⟩]).flatMap Frame.write) ∧
    p.io.out = (Spec.answers sampleHandler p.io.delivered).flatMap Frame.write := by
  obtain ⟨as, q, h1, _, h2, h3⟩ := C73_reached (id := .i32 1) (sid := .i32 3) (ip := sampleInit)
    (v := .ofJson (.str "c")) (early := [.workspaceReload (.str "a")])
    (pre := [.request (.workspaceBuildTargets (.i32 2)), .notification .initialized]) (rest := List.replicate 10 0)
    (step_arrive k sampleHandler (framed (sampleTalk ++ sampleLeave) ++ List.replicate 10 0)) (by simp) (by simp) rfl
    sampleTalk_carries.2 (by simp [Spec.Early]) rfl (by simp [Spec.NoShutdown]) (by simp)
  have h0 := steps_append (step_arrive ..) h1
  exact ⟨_, q, h0, h2, h3, (C75_success h0 h2).1⟩

/-- Beside C70: the handshake of `sampleWorld`. -/
example : Runs (fun _ => some Value.null) .start sampleWorld (serve (fun _ => some Value.null) sampleWorld).1
    (serve (fun _ => some Value.null) sampleWorld).2 := (C70_main ..).2 rfl

/-- Beside C74 (and C76): the same without shutdown, and the input ends. -/
example (k : Kind) : ∃ as p, Session.Steps k sampleHandler {} as p ∧ p.exit = some true ∧
    ∃ ms, Spec.Served [.workspaceReload (.str "a")] (.i32 1) (.ofJson (.str "c")) [.workspaceBuildTargets (.i32 2)] ms ∧
      p.io.out = ms.flatMap Frame.write := by
  have h0 : Session.Steps k sampleHandler {} [.peer, .peer]
      { io := { arrived := framed sampleTalk, unread := framed sampleTalk, inEnd := some false } } :=
    .snoc (step_arrive ..) (.io rfl (.hangUp _ false rfl) rfl)
  obtain ⟨as, q, h1, h2, h3⟩ := C72_settles k sampleHandler
    { io := { arrived := framed sampleTalk, unread := framed sampleTalk, inEnd := some false } }
  obtain ⟨h4, h5⟩ := steps_arrived h1 (fun h => (h3 _ h).1 rfl)
  refine ⟨_, q, steps_append h0 h1, C74_hang_up (id := .i32 1) (ip := sampleInit) (v := .ofJson (.str "c"))
    (early := [.workspaceReload (.str "a")]) (pre := [.request (.workspaceBuildTargets (.i32 2)),
      .notification .initialized]) (steps_append h0 h1) ?_ h2 h5 (by rw [h4]; exact sampleTalk_carries.1)
    (by simp [Spec.Early]) rfl (by simp [Spec.NoShutdown]) (by simp)⟩
  intro h
  simp only [List.mem_append, List.mem_cons, List.not_mem_nil, or_false] at h
  rcases h with (h | h) | h
  · cases h
  · cases h
  · exact (h3 _ h).2.2 rfl

/-- Beside C71 and C74: the same, and the connection stays open. -/
example (k : Kind) : ∃ as p, Session.Steps k sampleHandler {} as p ∧ Quiet k sampleHandler p ∧ p.exit = none ∧
    p.app.receives = true ∧ sampleTalk.map (·.2) <+: p.io.delivered ∧
    ∃ ms, Spec.Served [.workspaceReload (.str "a")] (.i32 1) (.ofJson (.str "c")) [.workspaceBuildTargets (.i32 2)] ms ∧
      p.io.out = ms.flatMap Frame.write := by
  obtain ⟨as, q, h1, h2, h3⟩ := C72_settles k sampleHandler
    { io := { arrived := framed sampleTalk, unread := framed sampleTalk } }
  obtain ⟨h4, h5⟩ := steps_arrived h1 (fun h => (h3 _ h).1 rfl)
  have h0 := steps_append (step_arrive k sampleHandler (framed sampleTalk)) h1
  have hw : Session.Act.writeFails ∉ [Session.Act.peer] ++ as := by
    intro h
    rcases List.mem_append.1 h with h | h
    · cases h with | tail _ h => cases h
    · exact (h3 _ h).2.2 rfl
  obtain ⟨h6, h7⟩ := C74_stays (id := .i32 1) (ip := sampleInit) (v := .ofJson (.str "c"))
    (early := [.workspaceReload (.str "a")]) (pre := [.request (.workspaceBuildTargets (.i32 2)),
      .notification .initialized]) h0 hw h5 (by rw [h4]; exact sampleTalk_carries.1)
    (by simp [Spec.Early]) rfl (by simp [Spec.NoShutdown]) (by simp)
  rcases C71_nothing_pending h0 hw h2 with ⟨b, h8⟩ | ⟨h8, _, h9, _⟩
  · rw [h6] at h8; cases h8
  · exact ⟨_, q, h0, h2, h6, h8, h9 _ _ [] (by rw [h4]; simp) sampleTalk_carries.1, h7 h2⟩

/-- Beside C76: the refusal of an early request is lost. -/
example (k : Kind) : ∃ as p, Session.Steps k sampleHandler {} as p ∧ p.exit = some false ∧
    p.io.accepted.length = 1 ∧ p.io.out = [] := by
  obtain ⟨as, p, h1, _, _, _, h2, _, ⟨m, _, h3⟩, h4⟩ := C76_violated (k := k) (process := sampleHandler)
    (r := .workspaceReload (.str "a")) (by simp [Spec.Early])
    (carries_framed (js := [sampleTalk[0], sampleLeave[1]]) (by
      intro x hx
      exact sampleTalk_ok x (by simp only [List.mem_cons, List.not_mem_nil, or_false] at hx; rcases hx with rfl | rfl <;> simp [sampleTalk, sampleLeave])))
  exact ⟨as, p, h1, h2, by simp [h3], h4⟩

end
end Bsp
