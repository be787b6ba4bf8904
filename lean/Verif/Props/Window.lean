/-
C125: clients with one thread that receive between their sends.
-/
import Verif.Window
import Verif.Props.Fair
import Verif.Props.Size

namespace Bsp
open Frame Json Transport
open Link (Move LinkStep Side)
open Conn (Dbg reply)
open Session (Proc App onRecv onSent toSend kindOf)
open EndToEnd (World side)
open Flow (Caps Asks Lets Turn Policy Chooses Dialog Waits)
open Fair (Actor Acts)

section
variable [LawfulExt] [Dbg] [FloatText] {process : InitializeBuild → Option Value}
variable {c : Caps} {kc ks : Kind} {said : List Message} {early : List Request} {id : RequestId} {ip : InitializeBuild}
  {v : Value} {pre : List Message} {sends : Policy}

/-! ### Specification -/

/-- The answers to what the client has sent that it has not received yet.
Specification about README.md:25-62. -/
def Spec.due (process : InitializeBuild → Option Value) (sent received : List Message) : List Message :=
  (Spec.answers process (sent.map Spec.heard)).drop received.length

/-- Before it has sent all, the client sends only if the answers that are due fit into the buffer, and receives only if
some answer is due. Specification about bsp-server/src/lib.rs:37-40. -/
structure Spec.Careful (process : InitializeBuild → Option Value) (cap : Nat) (said : List Message) (sends : Policy) :
    Prop where
  fits : ∀ a d, a <+: said → a ≠ said → sends a d = true → ((Spec.due process a d).flatMap Frame.write).length ≤ cap
  some : ∀ a d, a <+: said → a ≠ said → sends a d = false → Spec.due process a d ≠ []

/-! ### Runs -/

theorem dialog_steps {script : List Message} {u w : World} {as : List EndToEnd.Ev}
    (h : Dialog c kc ks process script sends u as w) : Flow.Steps c kc ks process u as w := by
  induction h with
  | nil => exact .nil _
  | snoc _ hs _ ih => exact .snoc ih hs

theorem dialog_append {script : List Message} {u w x : World} {as bs : List EndToEnd.Ev}
    (h1 : Dialog c kc ks process script sends u as w) (h2 : Dialog c kc ks process script sends w bs x) :
    Dialog c kc ks process script sends u (as ++ bs) x := by
  induction h2 with
  | nil => simpa using h1
  | snoc _ h4 h5 ih => rw [← List.append_assoc]; exact .snoc ih h4 h5

/-- How what the client has sent grows. -/
theorem step_sent {w w' : World} {a : EndToEnd.Ev} (h : Flow.Step c kc ks process w a w') :
    w'.client.io.accepted = w.client.io.accepted ∨
    ∃ m, a = .client (.act (.accept m)) ∧ w'.client.io.accepted = w.client.io.accepted ++ [m] := by
  obtain ⟨hs, _⟩ := h
  cases hs with
  | server => exact .inl rfl
  | client hm =>
    cases hm with
    | own hg hst _ _ _ =>
      cases hst with
      | accept m => exact .inr ⟨m, rfl, rfl⟩
      | read r => cases r <;> exact .inl rfl
      | _ => exact .inl rfl
    | arrive _ _ _ hst => cases hst; exact .inl rfl
    | fin _ _ _ hst => cases hst; exact .inl rfl
    | reset _ _ _ _ hst => cases hst; exact .inl rfl
    | fails _ _ _ _ hst => cases hst; exact .inl rfl
    | exit => exact .inl rfl

theorem dialog_said {script : List Message} {w : World} {as : List EndToEnd.Ev}
    (h : Dialog c kc ks process script sends {} as w) : w.client.io.accepted <+: script := by
  have key : ∀ {w0 w : World} {as}, Dialog c kc ks process script sends w0 as w → w0 = ({} : World) →
      w.client.io.accepted <+: script := by
    intro w0 w as h
    induction h with
    | nil => intro e; subst e; exact List.nil_prefix
    | snoc _ hs ht ih =>
      intro e
      rcases step_sent hs with h1 | ⟨m, rfl, h1⟩
      · rw [h1]; exact ih e
      · rw [h1]; exact ht.1
  exact key h rfl

/-! ### Where such a client waits -/

/-- When it waits for an answer that is due, somebody can do something. -/
theorem waits_receive (hc : 1 ≤ c.toRight) (hc' : 1 ≤ c.toLeft) (hp : Spec.Plan process said early id ip v pre) {w : World}
    {as : List EndToEnd.Ev} (h : Flow.Steps c kc ks process {} as w) (hs : Spec.Says said w) {script : List Message}
    (hq : Waits c kc ks process script sends w)
    (hr : w.client.io.accepted = script ∨ sends w.client.io.accepted w.client.io.delivered = false) :
    Spec.due process w.client.io.accepted w.client.io.delivered = [] := by
  obtain ⟨bs, ht⟩ := talking hp (flow_steps h) hs
  have hw := way ht hp hs (List.prefix_refl _)
  refine Classical.byContradiction fun hne => ?_
  have hlt : w.client.io.delivered.length < (Spec.answers process (w.client.io.accepted.map Spec.heard)).length := by
    refine Nat.lt_of_not_le fun hle => hne ?_
    rw [Spec.due, List.drop_eq_nil_iff]; exact hle
  have hu : ∃ i, Useful c (marksOf process w.client.io.accepted) w i := by
    by_cases hd : w.server.io.delivered.length < w.client.io.accepted.length
    · exact useful_heard hc hc' hw hd
    · exact useful_answered hc' hw (by omega) hlt
  obtain ⟨i, hi⟩ := hu
  obtain ⟨w', ha⟩ := useful_can (kc := kc) (ks := ks) (process := process) ht hs.gone hs.rx hi
  obtain ⟨a, h1, h2⟩ := acts_step ha
  have hch : Chooses script sends w a := by
    cases a with
    | server => trivial
    | client e =>
      cases e with
      | exit => trivial
      | act x => cases x <;> first | exact hr | trivial | cases h2
  rcases hq a w' h1 hch with rfl | rfl | rfl | rfl <;> cases h2

/-- When it waits in a send, the answers that are due do not fit. -/
theorem waits_send (hc : 1 ≤ c.toRight) (hc' : 1 ≤ c.toLeft) (hp : Spec.Plan process said early id ip v pre) {w : World}
    {as : List EndToEnd.Ev} (h : Flow.Steps c kc ks process {} as w) (hs : Spec.Says said w)
    (ht : w.client.io.txAlive = true) (hq : Waits c kc ks process said sends w) (hne : w.client.io.accepted ≠ said)
    (hr : sends w.client.io.accepted w.client.io.delivered = true) :
    c.toLeft < ((Spec.due process w.client.io.accepted w.client.io.delivered).flatMap Frame.write).length := by
  obtain ⟨bs, hgo⟩ := talking hp (flow_steps h) hs
  have hstuck : Flow.Stuck c kc ks process said w := by
    intro a u h1 h2
    refine hq a u h1 ?_
    cases a with
    | server => trivial
    | client e =>
      cases e with
      | exit => trivial
      | act x =>
        cases x with
        | accept m => exact ⟨h2, hr⟩
        | deliver m => exact absurd h2 hne
        | _ => trivial
  obtain ⟨hci, hfull⟩ := stuck_circle hc hc' hgo hs ht hne hstuck
  obtain ⟨_, hacc, _⟩ := talking_sent hp hgo hs
  have hw := way hgo hp hs (List.prefix_refl _)
  obtain ⟨b, r, hwr⟩ := hci.serverWrites
  obtain ⟨_, p2, _, p4⟩ := pair_inv hw.pair
  simp only at p2 p4
  have hwi := writeInv p2
  simp only [WriteInv, hwr] at hwi
  obtain ⟨ms, m, sent, e1, e2, e3⟩ := hwi
  have hlen := (flatMap_prefix (f := Frame.write) hacc).length_le
  have e4 := congrArg List.length e2
  rw [e1] at hlen
  rw [e3] at hfull
  -- what the client has received has arrived
  have hgot : ((Spec.answers process (w.client.io.accepted.map Spec.heard)).take
      w.client.io.delivered.length |>.flatMap Frame.write).length ≤ w.client.io.arrived.length := by
    obtain ⟨p1, _⟩ := pair_inv hw.pair
    obtain ⟨⟨used, ps, hu, _, hca⟩, _, _⟩ := (readInv p1).1
    simp only at hu hca
    obtain ⟨rest, hrest⟩ := p4.trans (C53_output p2).1
    obtain ⟨n1, n2, f1, f2, f3⟩ := carries_written hca (ns := w.server.io.accepted) (r := w.client.io.unread ++ rest)
      (fun n hn => (hw.okS n hn).carried.size) (by rw [← List.append_assoc, ← hu]; exact hrest)
    have f4 : (Spec.answers process (w.client.io.accepted.map Spec.heard)).take w.client.io.delivered.length <+: n1 := by
      refine take_short (List.prefix_refl _) (List.IsPrefix.trans ?_ hacc) (by rw [f3]; simp)
      rw [f1]; exact List.prefix_append _ _
    have f5 := (flatMap_prefix (f := Frame.write) f4).length_le
    rw [← f2] at f5
    rw [hu, List.length_append]
    omega
  rw [← List.take_append_drop w.client.io.delivered.length
    (Spec.answers process (w.client.io.accepted.map Spec.heard))] at hlen
  simp only [List.flatMap_append, List.flatMap_cons, List.flatMap_nil, List.append_nil, List.length_append,
    List.length_cons] at hlen hfull e4
  simp only [Spec.due]
  omega

/-! ### Careful clients -/

omit [FloatText] in
theorem due_nil {a d : List Message} (h : Spec.due process a d = []) :
    (Spec.answers process (a.map Spec.heard)).length ≤ d.length := List.drop_eq_nil_iff.1 h

/-- When a client that has sent all waits. -/
theorem waits_all (hc : 1 ≤ c.toRight) (hc' : 1 ≤ c.toLeft) (hp : Spec.Plan process said early id ip v pre) {w : World}
    {as : List EndToEnd.Ev} (h : Flow.Steps c kc ks process {} as w) (hg : w.client.gone = false)
    (hr : w.client.io.rxAlive = true) (hall : w.client.io.accepted = said) (hq : Waits c kc ks process said sends w) :
    ∃ ms, Spec.Served early id v (Spec.requests pre) ms ∧ w.client.io.delivered = ms.map Message.norm := by
  refine C122_rest hc hc' hp h hg hr hall ?_
  intro a u hs
  have turn : a.free = false → Chooses said sends w a := by
    intro hf
    cases a with
    | server => trivial
    | client e =>
      cases e with
      | exit => trivial
      | act x => cases x <;> first | exact .inl hall | trivial | cases hf
  cases hf : a.free with
  | true => rfl
  | false =>
    rcases hq a u hs (turn hf) with rfl | rfl | rfl | rfl <;> cases hf

/-- C125: a client with one thread that sends only if the answers that are due fit into the buffer, and receives only if
an answer is due, gets all sent and is served, whatever the buffers: when it waits (C125_terminates), it has sent all and has got all answers. -/
theorem C125_served (hc : 1 ≤ c.toRight) (hc' : 1 ≤ c.toLeft) (hp : Spec.Plan process said early id ip v pre)
    (hcare : Spec.Careful process c.toLeft said sends) {w : World} {as : List EndToEnd.Ev}
    (h : Dialog c kc ks process said sends {} as w) (hg : w.client.gone = false) (hr : w.client.io.rxAlive = true)
    (ht : w.client.io.txAlive = true) (hq : Waits c kc ks process said sends w) :
    w.client.io.accepted = said ∧
    ∃ ms, Spec.Served early id v (Spec.requests pre) ms ∧ w.client.io.delivered = ms.map Message.norm := by
  have hs : Spec.Says said w := ⟨hg, hr, dialog_said h⟩
  have hst := dialog_steps h
  have hall : w.client.io.accepted = said := by
    refine Classical.byContradiction fun hne => ?_
    cases hd : sends w.client.io.accepted w.client.io.delivered with
    | true =>
      have h1 := waits_send hc hc' hp hst hs ht hq hne hd
      have h2 := hcare.fits _ _ hs.said hne hd
      omega
    | false => exact hcare.some _ _ hs.said hne hd (waits_receive hc hc' hp hst hs hq (.inr hd))
  exact ⟨hall, waits_all hc hc' hp hst hg hr hall hq⟩

/-- C125: a client with one thread gets to where it waits, or leaves, whatever it decides. -/
theorem C125_terminates (c : Caps) (kc ks : Kind) (process : InitializeBuild → Option Value) (script : List Message)
    (sends : Policy) : WellFounded fun w' w : World => ∃ a, Flow.Step c kc ks process w a w' ∧ Chooses script sends w a ∧
      a ≠ .client (.act .dropRx) ∧ a ≠ .client (.act .dropTx) ∧ a ≠ .client .exit := by
  refine Subrelation.wf (r := InvImage (Prod.Lex (· < ·) (Prod.Lex (· < ·)
      (Prod.Lex (Prod.Lex (· < ·) (· < ·)) (· < ·)))) (fun w : World => (script.length - w.client.io.accepted.length, worldWork w)))
    ?_ (InvImage.wf _ (Prod.lex ⟨_, Nat.lt_wfRel.wf⟩ ⟨_, (Prod.lex ⟨_, Nat.lt_wfRel.wf⟩ ⟨_, (Prod.lex ⟨_,
      (Prod.lex ⟨_, Nat.lt_wfRel.wf⟩ ⟨_, Nat.lt_wfRel.wf⟩).wf⟩ ⟨_, Nat.lt_wfRel.wf⟩).wf⟩).wf⟩).wf)
  rintro w' w ⟨a, ⟨hs, hl⟩, ht, h1, h2, h3⟩
  by_cases ha : ∃ m, a = .client (.act (.accept m))
  · obtain ⟨m, rfl⟩ := ha
    have hle := List.IsPrefix.length_le ht.1
    refine .left _ _ ?_
    cases hs with
    | client hm =>
      cases hm with
      | own _ hst =>
        cases hst with
        | accept m =>
          simp only [List.length_append, List.length_singleton] at hle ⊢
          omega
  · have happ : ∀ e, a = EndToEnd.Ev.client e → e.app = false := by
      rintro e rfl
      cases e with
      | exit => exact absurd rfl h3
      | act x =>
        cases x with
        | accept m => exact absurd ⟨m, rfl⟩ ha
        | dropRx => exact absurd rfl h1
        | dropTx => exact absurd rfl h2
        | _ => rfl
    have hw := world_work hs happ
    have hacc : w'.client.io.accepted = w.client.io.accepted := by
      rcases step_sent ⟨hs, hl⟩ with h | ⟨m, rfl, _⟩
      · exact h
      · exact absurd ⟨m, rfl⟩ ha
    exact Prod.lex_def.2 (.inr ⟨by simp only [hacc], hw⟩)

/-- It goes on until it waits, the client neither dropping anything nor exiting. -/
theorem dialog_settle (c : Caps) (kc ks : Kind) (process : InitializeBuild → Option Value) (script : List Message)
    (sends : Policy) (w : World) : ∃ as u, Dialog c kc ks process script sends w as u ∧
      Waits c kc ks process script sends u ∧ u.client.gone = w.client.gone ∧ u.client.io.rxAlive = w.client.io.rxAlive ∧
      u.client.io.txAlive = w.client.io.txAlive := by
  refine (C125_terminates c kc ks process script sends).induction (C := fun w => ∃ as u,
    Dialog c kc ks process script sends w as u ∧ Waits c kc ks process script sends u ∧
      u.client.gone = w.client.gone ∧ u.client.io.rxAlive = w.client.io.rxAlive ∧
      u.client.io.txAlive = w.client.io.txAlive) w ?_
  intro w ih
  by_cases hq : Waits c kc ks process script sends w
  · exact ⟨[], w, .nil w, hq, rfl, rfl, rfl⟩
  simp only [Waits, Classical.not_forall, not_or] at hq
  obtain ⟨a, u, h1, h2, _, n1, n2, n3⟩ := hq
  obtain ⟨as, r, h3, h4, k1, k2, k3⟩ := ih u ⟨a, h1, h2, n1, n2, n3⟩
  have keep : u.client.gone = w.client.gone ∧ u.client.io.rxAlive = w.client.io.rxAlive ∧
      u.client.io.txAlive = w.client.io.txAlive := by
    have hs := h1.step
    cases hs with
    | server => exact ⟨rfl, rfl, rfl⟩
    | @client ev x hm =>
      cases ha : ev.app with
      | false => obtain ⟨i1, _, i2, i3⟩ := move_keeps hm ha; exact ⟨i1, i2, i3⟩
      | true =>
        cases hm with
        | own _ hst =>
          cases hst with
          | accept m => exact ⟨rfl, rfl, rfl⟩
          | dropRx => exact absurd rfl n1
          | dropTx => exact absurd rfl n2
          | _ => cases ha
        | exit => exact absurd rfl n3
        | _ => cases ha
  exact ⟨[a] ++ as, r, dialog_append (.snoc (.nil _) h1 h2) h3, h4, k1.trans keep.1, k2.trans keep.2.1, k3.trans keep.2.2⟩

/-- C125: so there is a run in which such a client sends all that it has to say and is served. -/
theorem C125_reached (hc : 1 ≤ c.toRight) (hc' : 1 ≤ c.toLeft) (hp : Spec.Plan process said early id ip v pre)
    (hcare : Spec.Careful process c.toLeft said sends) (kc ks : Kind) :
    ∃ as w, Dialog c kc ks process said sends {} as w ∧ w.client.io.accepted = said ∧
    ∃ ms, Spec.Served early id v (Spec.requests pre) ms ∧ w.client.io.delivered = ms.map Message.norm := by
  obtain ⟨as, w, h1, h2, k1, k2, k3⟩ := dialog_settle c kc ks process said sends {}
  obtain ⟨h3, h4⟩ := C125_served hc hc' hp hcare h1 k1 k2 k3 h2
  exact ⟨as, w, h1, h3, h4⟩

/-! ### One request at a time -/

/-- The client sends if all its requests that the server hears as requests have been answered.
Specification about bsp-server/src/lib.rs:37-40. -/
def Spec.inStep : Policy := fun sent received =>
  decide ((Spec.requests (sent.map Spec.heard)).length ≤ received.length)

omit [FloatText] in
/-- Only requests are answered. -/
theorem feed_asked {a : App} (ha : toSend a = none) (ms : List Message) :
    (feed process a ms).2.length ≤ (Spec.requests ms).length := by
  induction ms generalizing a with
  | nil => simp [feed]
  | cons m ms ih =>
    have h1 := ih (feed_toSend (process := process) ha (ms := [m]))
    simp only [feed] at h1
    have h2 : (round process a m).2.length ≤ (Spec.requests [m]).length := by
      cases m with
      | request r => unfold round; split <;> simp [Spec.requests]
      | response r => cases a <;> simp [round, onRecv, toSend, Spec.requests] at ha ⊢
      | notification r =>
        cases a <;> cases r <;> simp [round, onRecv, toSend, Spec.requests] at ha ⊢
    rw [show m :: ms = [m] ++ ms from rfl, requests_append, List.length_append]
    simp only [List.singleton_append, feed, List.length_append]
    omega

/-- The answers in a session: one for each request. -/
theorem session_answers (hp : Spec.Plan process said early id ip v pre) {a : List Message} (ha : a <+: said) :
    (Spec.answers process (a.map Spec.heard)).length = (Spec.requests (a.map Spec.heard)).length := by
  obtain ⟨t, rfl⟩ := ha
  have h1 := hp.heard
  rw [List.map_append] at h1
  have h2 := feed_session (id := id) hp.refused hp.accepts (plan_pre hp).1
  rw [← h1, feed_append] at h2
  have h3 := congrArg (fun x => x.2.length) h2
  simp only [List.length_append, List.length_map, List.length_singleton] at h3
  have h4 := congrArg (fun x => (Spec.requests x).length) h1
  have h5 : ∀ l : List Request, Spec.requests (l.map Message.request) = l := by
    intro l
    induction l with
    | nil => rfl
    | cons r l ih => simp [Spec.requests, ih]
  simp only [Spec.session, requests_append, h5, Spec.requests, List.length_append, List.length_cons] at h4
  have h6 := feed_asked (process := process) (a := .start) rfl (a.map Spec.heard)
  have h7 := feed_asked (process := process) (feed_toSend (process := process) (a := .start) rfl (ms := a.map Spec.heard)) (t.map Spec.heard)
  rw [answers_eq]
  omega

theorem inStep_careful (hp : Spec.Plan process said early id ip v pre) (cap : Nat) :
    Spec.Careful process cap said Spec.inStep := by
  refine ⟨fun a d ha _ hd => ?_, fun a d ha _ hd hn => ?_⟩
  · have h1 := of_decide_eq_true hd
    rw [Spec.due, List.drop_of_length_le (by rw [session_answers hp ha]; exact h1)]
    simp
  · have h1 := of_decide_eq_false hd
    have h2 := due_nil hn
    rw [session_answers hp ha] at h2
    omega

/-- C125: a client that does one request at a time is served, whatever the buffers. -/
theorem C125_in_step (hc : 1 ≤ c.toRight) (hc' : 1 ≤ c.toLeft) (hp : Spec.Plan process said early id ip v pre) {w : World}
    {as : List EndToEnd.Ev} (h : Dialog c kc ks process said Spec.inStep {} as w) (hg : w.client.gone = false)
    (hr : w.client.io.rxAlive = true) (ht : w.client.io.txAlive = true) (hq : Waits c kc ks process said Spec.inStep w) :
    w.client.io.accepted = said ∧
    ∃ ms, Spec.Served early id v (Spec.requests pre) ms ∧ w.client.io.delivered = ms.map Message.norm :=
  C125_served hc hc' hp (inStep_careful hp _) h hg hr ht hq

/-! ### A window of bytes -/

/-- For each message that the server hears as a request, the bytes of its frame and 31 more.
Specification about bsp-server/src/message.rs:42-49. -/
def Spec.costs : List Message → List Nat
  | [] => []
  | m :: ms =>
    match Spec.heard m with
    | .request _ => ((Frame.write m).length + 31) :: Spec.costs ms
    | _ => Spec.costs ms

/-- The client does one request at a time until it has got the first `n` answers, and then sends as long as the costs of
the requests that have not been answered do not exceed `cap`: it need not know the answers.
Specification about bsp-server/src/lib.rs:37-40. -/
def Spec.window (n cap : Nat) : Policy := fun sent received =>
  if received.length < n then Spec.inStep sent received
  else decide (((Spec.costs sent).drop received.length).sum ≤ cap)

omit [Dbg] in
theorem costs_length (a : List Message) : (Spec.costs a).length = (Spec.requests (a.map Spec.heard)).length := by
  induction a with
  | nil => rfl
  | cons m a ih =>
    simp only [Spec.costs, List.map_cons]
    split
    · rename_i r hr
      rw [hr]; simp [Spec.requests, ih]
    · rename_i hr
      cases hm : Spec.heard m with
      | request r => exact absurd hm (hr r)
      | response r => simp [Spec.requests, ih]
      | notification r => simp [Spec.requests, ih]

omit [Dbg] in
/-- What the loop answers to a request takes at most its costs. -/
theorem reply_cost {m : Message} (h : Spec.Sayable m) {r : Request} (hr : Spec.heard m = .request r) :
    (Frame.write (reply r)).length ≤ (Frame.write m).length + 31 := by
  have h1 := readText_write m h.carried.size [] false
  obtain ⟨_, _, f, h2, h3⟩ := (C08_exactly_one_frame ..).1 h1
  rw [List.append_nil, List.append_nil] at h3
  have h4 : Gram.JsonText 127 (Frame.msgText m) m.enc :=
    Text.parse_iff.1 (Text.parse_print h.carried.nest h.carried.numbers)
  have h5 := sayable_dec h
  rw [hr] at h5
  rw [h3]
  exact (C124_answer h2 h4 h5).1

omit [Dbg] in
theorem replies_cost {a : List Message} (h : ∀ m ∈ a, Spec.Sayable m) (n : Nat) :
    ((((Spec.requests (a.map Spec.heard)).drop n).map reply).flatMap Frame.write).length ≤
      ((Spec.costs a).drop n).sum := by
  induction a generalizing n with
  | nil => simp [Spec.requests]
  | cons m a ih =>
    have ih := ih (fun x hx => h x (List.mem_cons_of_mem _ hx))
    simp only [Spec.costs, List.map_cons]
    split
    · rename_i r hr
      rw [hr]
      have h1 := reply_cost (h m (by simp)) hr
      cases n with
      | zero =>
        have := ih 0
        simp only [List.drop_zero] at this ⊢
        simp only [Spec.requests, List.map_cons, List.flatMap_cons, List.length_append, List.sum_cons]
        omega
      | succ n => simpa only [Spec.requests, List.drop_succ_cons] using ih n
    · rename_i hr
      cases hm : Spec.heard m with
      | request r => exact absurd hm (hr r)
      | response r => simpa only [Spec.requests] using ih n
      | notification r => simpa only [Spec.requests] using ih n

/-- The answers after the handshake. -/
theorem session_later (hp : Spec.Plan process said early id ip v pre) {a : List Message} (ha : a <+: said) {n : Nat}
    (hn : early.length + 1 ≤ n) :
    (Spec.answers process (a.map Spec.heard)).drop n = ((Spec.requests (a.map Spec.heard)).drop n).map reply := by
  have h1 := session_answers hp ha
  obtain ⟨t, rfl⟩ := ha
  have h2 := hp.heard
  rw [List.map_append] at h2
  have h3 : Spec.answers process (a.map Spec.heard) <+: Spec.answers process (Spec.session early id ip pre) :=
    answers_prefix (by rw [← h2]; exact List.prefix_append _ _)
  rw [answers_eq (Spec.session early id ip pre), feed_session hp.refused hp.accepts (plan_pre hp).1] at h3
  have h4 : Spec.requests (a.map Spec.heard) <+: early ++ [.initializeBuild id ip] ++ Spec.requests pre := by
    have h5 : ∀ l : List Request, Spec.requests (l.map Message.request) = l := by
      intro l
      induction l with
      | nil => rfl
      | cons r l ih => simp [Spec.requests, ih]
    have h6 := congrArg Spec.requests h2
    simp only [Spec.session, requests_append, h5, Spec.requests] at h6
    exact ⟨_, by rw [h6]; simp⟩
  rw [List.prefix_iff_eq_take] at h3 h4
  rw [h1] at h3
  generalize (Spec.requests (a.map Spec.heard)).length = k at h3 h4
  rw [h3, h4, List.drop_take, List.drop_take, List.map_take]
  congr 1
  · have e : ∀ {α : Type} (xs ys : List α), xs.length ≤ n → (xs ++ ys).drop n = ys.drop (n - xs.length) := by
      intro α xs ys hxs
      rw [List.drop_append, List.drop_of_length_le hxs, List.nil_append]
    rw [e _ _ (by simpa using hn), e _ _ (by simpa using hn)]
    simp [List.map_drop]

theorem window_careful (hp : Spec.Plan process said early id ip v pre) {n cap : Nat} (hn : early.length + 1 ≤ n) :
    Spec.Careful process cap said (Spec.window n cap) := by
  have hi := inStep_careful hp cap
  refine ⟨fun a d ha hne hd => ?_, fun a d ha hne hd hno => ?_⟩
  · unfold Spec.window at hd
    split at hd
    · exact hi.fits a d ha hne hd
    · rename_i hl
      have h1 := of_decide_eq_true hd
      rw [Spec.due, session_later hp ha (by omega)]
      exact Nat.le_trans (replies_cost (fun m hm => hp.sayable m (ha.subset hm)) _) h1
  · unfold Spec.window at hd
    split at hd
    · exact hi.some a d ha hne hd hno
    · have h1 := of_decide_eq_false hd
      have h2 := due_nil hno
      rw [session_answers hp ha, ← costs_length] at h2
      rw [List.drop_of_length_le h2] at h1
      simp at h1

/-- C125: a client that keeps count of the bytes of its unanswered requests, and 31 more for each, is served. -/
theorem C125_window (hc : 1 ≤ c.toRight) (hc' : 1 ≤ c.toLeft) (hp : Spec.Plan process said early id ip v pre) {n cap : Nat}
    (hn : early.length + 1 ≤ n) (hcap : cap ≤ c.toLeft) {w : World} {as : List EndToEnd.Ev}
    (h : Dialog c kc ks process said (Spec.window n cap) {} as w) (hg : w.client.gone = false)
    (hr : w.client.io.rxAlive = true) (ht : w.client.io.txAlive = true)
    (hq : Waits c kc ks process said (Spec.window n cap) w) :
    w.client.io.accepted = said ∧
    ∃ ms, Spec.Served early id v (Spec.requests pre) ms ∧ w.client.io.delivered = ms.map Message.norm := by
  have hw := window_careful hp (cap := cap) hn
  exact C125_served hc hc' hp ⟨fun a d h1 h2 h3 => Nat.le_trans (hw.fits a d h1 h2 h3) hcap, hw.some⟩ h hg hr ht hq

/-! ### A request that gets lost -/

/-- The client sends if all its requests have been answered. Specification about bsp-server/src/lib.rs:37-40. -/
def Spec.eachAnswered : Policy := fun sent received => decide ((Spec.requests sent).length ≤ received.length)

omit [Dbg] [FloatText] in
theorem heard_fewer (a : List Message) : (Spec.requests (a.map Spec.heard)).length ≤ (Spec.requests a).length := by
  induction a with
  | nil => exact Nat.le_refl _
  | cons m a ih =>
    cases m with
    | request r =>
      cases hm : Spec.heard (.request r) <;> simp [hm, Spec.requests] <;> omega
    | response r => simpa [Spec.heard, Message.norm, Spec.requests] using ih
    | notification n => simpa [Spec.heard, Message.norm, Spec.requests] using ih

/-- C125 (a consequence of C13, C77): if one of the requests is one that the library writes without params, or with null,
a client that waits for the answer to each of its requests never sends anything after that one, whatever the buffers. -/
theorem C125_lost (hp : Spec.Plan process said early id ip v pre) {before after : List Message} {r : Request}
    (hs : said = before ++ .request r :: after) (hb : Spec.Bare r) {w : World} {as : List EndToEnd.Ev}
    (h : Dialog c kc ks process said Spec.eachAnswered {} as w) (hg : w.client.gone = false)
    (hr : w.client.io.rxAlive = true) : w.client.io.accepted <+: before ++ [.request r] := by
  have key : ∀ {w0 w : World} {as}, Dialog c kc ks process said Spec.eachAnswered w0 as w → w0 = ({} : World) →
      Spec.Says said w → w.client.io.accepted <+: before ++ [.request r] := by
    intro w0 w as h
    induction h with
    | nil => intro e _; subst e; exact List.nil_prefix
    | @snoc as w a w' hd hst ht ih =>
      intro e hsay
      have hsay0 := says_before hst.step hsay
      have h0 := ih e hsay0
      rcases step_sent hst with h1 | ⟨m, rfl, h1⟩
      · rw [h1]; exact h0
      rw [h1]
      obtain ⟨h2, h3⟩ := ht
      have h3 := of_decide_eq_true h3
      refine List.prefix_of_prefix_length_le h2 (by rw [hs]; exact ⟨after, by simp⟩) ?_
      rw [List.length_append, List.length_singleton]
      refine Nat.lt_of_le_of_ne h0.length_le fun hl => ?_
      have h4 := h0.eq_of_length hl
      subst e
      obtain ⟨bs, htk⟩ := talking hp (flow_steps (dialog_steps hd)) hsay0
      have hw := way htk hp hsay0 (List.prefix_refl _)
      have h5 := hw.got.length_le
      have h6 := hw.answers.1.length_le
      rw [List.length_map] at h5
      rw [session_answers hp hsay0.said] at h6
      have h7 : (Spec.requests (w.client.io.accepted.map Spec.heard)).length < (Spec.requests w.client.io.accepted).length := by
        rw [h4, List.map_append, requests_append, requests_append]
        have := heard_fewer before
        simp only [List.map_cons, List.map_nil, heard_bare hb, Spec.requests, List.length_append, List.length_nil,
          List.length_cons]
        omega
      omega
  have hd := dialog_said h
  exact key h rfl ⟨hg, hr, hd⟩

/-- C125: it gets that far, if there was no such request before, and then waits for ever, having got all the answers that
there are. -/
theorem C125_lost_waits (hc : 1 ≤ c.toRight) (hc' : 1 ≤ c.toLeft) (hp : Spec.Plan process said early id ip v pre)
    {before after : List Message} {r : Request} (hs : said = before ++ .request r :: after) (hb : Spec.Bare r)
    (hfirst : ∀ q, .request q ∈ before → ¬ Spec.Bare q) (ha : after ≠ []) {w : World} {as : List EndToEnd.Ev}
    (h : Dialog c kc ks process said Spec.eachAnswered {} as w) (hg : w.client.gone = false)
    (hr : w.client.io.rxAlive = true) (ht : w.client.io.txAlive = true)
    (hq : Waits c kc ks process said Spec.eachAnswered w) :
    w.client.io.accepted = before ++ [.request r] ∧
    w.client.io.delivered.length = (Spec.requests (before.map Spec.heard)).length ∧ w.server.exit = none := by
  have h0 := C125_lost hp hs hb h hg hr
  have hsay : Spec.Says said w := ⟨hg, hr, dialog_said h⟩
  have hst := dialog_steps h
  obtain ⟨bs, htk⟩ := talking hp (flow_steps hst) hsay
  have hw := way htk hp hsay (List.prefix_refl _)
  have hgot := hw.got.length_le
  have hans := hw.answers.1.length_le
  rw [List.length_map] at hgot
  rw [session_answers hp hsay.said] at hans
  have hne : w.client.io.accepted ≠ said := by
    intro e
    have h1 := h0.length_le
    rw [e, hs] at h1
    cases after with
    | nil => exact ha rfl
    | cons => simp at h1
  have same : ∀ a, a <+: before → (Spec.requests (a.map Spec.heard)).length = (Spec.requests a).length := by
    intro a hab
    have hno : ∀ q, Message.request q ∈ a → ¬ Spec.Bare q := fun q hq => hfirst q (hab.subset hq)
    have hsa : ∀ m ∈ a, Spec.Sayable m := by
      intro m hm
      refine hp.sayable m ?_
      rw [hs]; exact List.mem_append_left _ (hab.subset hm)
    clear hab
    induction a with
    | nil => rfl
    | cons m a ih =>
      have ih := ih (fun q hq => hno q (List.mem_cons_of_mem _ hq)) (fun x hx => hsa x (List.mem_cons_of_mem _ hx))
      cases m with
      | request q =>
        rcases (hsa _ List.mem_cons_self).kind with h1 | ⟨q', h1, h2⟩
        · rw [List.map_cons, heard_wireOk h1]; simp [Message.norm, Spec.requests, ih]
        · cases h1; exact absurd h2 (hno q List.mem_cons_self)
      | response q => simpa [Spec.heard, Message.norm, Spec.requests] using ih
      | notification q => simpa [Spec.heard, Message.norm, Spec.requests] using ih
  have hall : w.client.io.accepted = before ++ [.request r] := by
    refine Classical.byContradiction fun hn => ?_
    have hab : w.client.io.accepted <+: before := by
      refine List.prefix_of_prefix_length_le h0 (List.prefix_append _ _) ?_
      have h1 := h0.length_le
      have h2 : w.client.io.accepted.length ≠ (before ++ [Message.request r]).length := fun e => hn (h0.eq_of_length e)
      rw [List.length_append, List.length_singleton] at h1 h2
      omega
    have hsame := same _ hab
    have hpol : Spec.eachAnswered w.client.io.accepted w.client.io.delivered =
        Spec.inStep w.client.io.accepted w.client.io.delivered := by
      unfold Spec.eachAnswered Spec.inStep; rw [hsame]
    have hi := inStep_careful hp c.toLeft
    cases hd : Spec.eachAnswered w.client.io.accepted w.client.io.delivered with
    | true =>
      have h1 := waits_send hc hc' hp hst hsay ht hq hne hd
      have h2 := hi.fits _ _ hsay.said hne (by rw [← hpol]; exact hd)
      omega
    | false =>
      exact hi.some _ _ hsay.said hne (by rw [← hpol]; exact hd) (waits_receive hc hc' hp hst hsay hq (.inr hd))
  have hcount : (Spec.requests (w.client.io.accepted.map Spec.heard)).length =
      (Spec.requests (before.map Spec.heard)).length := by
    rw [hall, List.map_append, requests_append]
    simp [heard_bare hb, Spec.requests]
  have hmine : (Spec.requests w.client.io.accepted).length = (Spec.requests before).length + 1 := by
    rw [hall, requests_append]; simp [Spec.requests]
  have hbefore := same before (List.prefix_refl _)
  have hpol : Spec.eachAnswered w.client.io.accepted w.client.io.delivered = false := by
    refine decide_eq_false ?_
    omega
  have hdue := due_nil (waits_receive hc hc' hp hst hsay hq (.inr hpol))
  rw [session_answers hp hsay.said] at hdue
  exact ⟨hall, by omega, htk.alive⟩


end

section
attribute [local instance] Ext.sample FloatText.sample Dbg.sample

/-- Beside C125_in_step, C125_served and C125_reached: a session that a client never gets through that sends all before it
receives, whatever the buffers, and that one gets through that does one request at a time. -/
example (c : Caps) (hc : 1 ≤ c.toRight) (hc' : 1 ≤ c.toLeft) (kc ks : Kind) : ∃ script : List Message,
    (∃ as w, Flow.Turns c kc ks sampleHandler script {} as w ∧ Flow.Stuck c kc ks sampleHandler script w ∧
      w.client.io.delivered = []) ∧
    (∃ as w, Dialog c kc ks sampleHandler script Spec.inStep {} as w ∧ w.client.io.accepted = script ∧
      3 ≤ w.client.io.delivered.length) := by
  have hp := manyPlan (2 * c.toRight / 21 + 2 * c.toLeft / 21 + 6)
  refine ⟨manySaid (2 * c.toRight / 21 + 2 * c.toLeft / 21 + 6), ?_, ?_⟩
  · obtain ⟨as, w, h1, h2, k1, k2, k3⟩ := turns_settle c kc ks sampleHandler (manySaid (2 * c.toRight / 21 + 2 * c.toLeft / 21 + 6)) {}
    obtain ⟨h3, h4, _, h5⟩ := C122_stuck hc hc' hp h1 k1 k2 k3 h2 (by rw [many_answers]; simp only [List.length_append, List.length_replicate]; omega)
    exact ⟨as, w, h1, h2, h4⟩
  · obtain ⟨as, w, h1, h2, k1, k2, k3⟩ := dialog_settle c kc ks sampleHandler (manySaid (2 * c.toRight / 21 + 2 * c.toLeft / 21 + 6))
      Spec.inStep {}
    obtain ⟨h3, ms, ⟨refs, rs, h6, h7, h8⟩, h9⟩ := C125_in_step hc hc' hp h1 k1 k2 k3 h2
    refine ⟨as, w, h1, h3, ?_⟩
    have := h7.length
    cases h8 with
    | cons _ h8 => cases h8; simp [h9, h6, this]

/-- Beside C125_reached: with room for one byte each way. -/
example (kc ks : Kind) : ∃ as w, Dialog ⟨1, 1⟩ kc ks sampleHandler (manySaid 10) Spec.inStep {} as w ∧
    w.client.io.accepted = manySaid 10 := by
  obtain ⟨as, w, h1, h2, _⟩ := C125_reached (c := ⟨1, 1⟩) (by simp) (by simp) (manyPlan 10)
    (inStep_careful (manyPlan 10) 1) kc ks
  exact ⟨as, w, h1, h2⟩

/-- Beside C125_window: with 300 bytes the client sends a second request before it has got the answer to the first, but
not a fourth one, and so it gets through any number of them. -/
example (kc ks : Kind) (n : Nat) :
    (∀ m, Spec.window 2 300 (sampleSaid ++ [.request (.buildTargetSources (.i32 2) ⟨[]⟩)]) [m, m, m] = true ∧
      Spec.window 2 300 (sampleSaid ++ List.replicate 3 (.request (.buildTargetSources (.i32 2) ⟨[]⟩))) [m, m, m] = false) ∧
    ∃ as w, Dialog ⟨1, 300⟩ kc ks sampleHandler
      (sampleSaid ++ List.replicate n (.request (.buildTargetSources (.i32 2) ⟨[]⟩))) (Spec.window 2 300) {} as w ∧
      w.client.io.accepted = sampleSaid ++ List.replicate n (.request (.buildTargetSources (.i32 2) ⟨[]⟩)) := by
  have e1 : ((Spec.costs (sampleSaid ++ [.request (.buildTargetSources (.i32 2) ⟨[]⟩)])).drop 3).sum ≤ 300 := by
    clear n kc ks
    decide +kernel
  have e2 : ¬ ((Spec.costs (sampleSaid ++ List.replicate 3 (.request (.buildTargetSources (.i32 2) ⟨[]⟩)))).drop 3).sum ≤
      300 := by
    clear n kc ks e1
    decide +kernel
  refine ⟨fun m => ⟨?_, ?_⟩, ?_⟩
  · exact decide_eq_true e1
  · exact decide_eq_false e2
  · obtain ⟨as, w, h1, h2, k1, k2, k3⟩ := dialog_settle ⟨1, 300⟩ kc ks sampleHandler
      (sampleSaid ++ List.replicate n (.request (.buildTargetSources (.i32 2) ⟨[]⟩))) (Spec.window 2 300) {}
    exact ⟨as, w, h1, (C125_window (by simp) (by simp) (endlessPlan n) (by simp) (by simp) h1 k1 k2 k3 h2).1⟩

/-- Beside C125_terminates: no such client goes on for ever. -/
example (c : Caps) (kc ks : Kind) (script : List Message) : ¬ ∃ f : Nat → World, ∀ n, ∃ a,
    Flow.Step c kc ks sampleHandler (f n) a (f (n + 1)) ∧ Chooses script Spec.inStep (f n) a ∧
      a ≠ .client (.act .dropRx) ∧ a ≠ .client (.act .dropTx) ∧ a ≠ .client .exit := by
  rintro ⟨f, hf⟩
  have hwf := C125_terminates c kc ks sampleHandler script Spec.inStep
  have : ∀ w, ∀ n, f n ≠ w := by
    intro w
    induction w using hwf.induction with
    | _ w ih =>
      rintro n rfl
      exact ih _ (hf n) (n + 1) rfl
  exact this _ 0 rfl

/-- Beside C125_lost and C125_lost_waits: one that waits for the answer to each of its requests never gets past shutdown,
though three of its requests have been answered. -/
example (c : Caps) (hc : 1 ≤ c.toRight) (hc' : 1 ≤ c.toLeft) (kc ks : Kind) :
    (∀ as w, Dialog c kc ks sampleHandler (sampleSaid ++ [.request (.buildTargetSources (.i32 2) ⟨[]⟩)]) Spec.eachAnswered
      {} as w → w.client.gone = false → w.client.io.rxAlive = true → w.client.io.accepted <+: sampleSaid) ∧
    ∃ as w, Dialog c kc ks sampleHandler (sampleSaid ++ [.request (.buildTargetSources (.i32 2) ⟨[]⟩)]) Spec.eachAnswered
      {} as w ∧ w.client.io.accepted = sampleSaid ∧ w.client.io.delivered.length = 3 := by
  have hp := endlessPlan 1
  have hs : sampleSaid ++ List.replicate 1 (.request (.buildTargetSources (.i32 2) ⟨[]⟩)) =
    sampleSaid.dropLast ++ .request (.shutdown (.i32 3)) :: [.request (.buildTargetSources (.i32 2) ⟨[]⟩)] := rfl
  have hb : Spec.Bare (.shutdown (.i32 3)) := ⟨_, .inl rfl⟩
  refine ⟨fun as w h hg hr => C125_lost hp hs hb h hg hr, ?_⟩
  obtain ⟨as, w, h1, h2, k1, k2, k3⟩ := dialog_settle c kc ks sampleHandler
    (sampleSaid ++ [.request (.buildTargetSources (.i32 2) ⟨[]⟩)]) Spec.eachAnswered {}
  obtain ⟨h3, h4, _⟩ := C125_lost_waits hc hc' hp hs hb (by
    intro q hq ⟨i, hi⟩
    simp [sampleSaid] at hq
    rcases hq with rfl | rfl | rfl <;> simp at hi) (by simp) h1 k1 k2 k3 h2
  exact ⟨as, w, h1, h3, h4⟩

end
end Bsp
