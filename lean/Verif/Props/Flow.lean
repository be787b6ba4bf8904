/-
C122: a client and the server, with finite buffers between them.
-/
import Verif.Flow
import Verif.Props.EndToEnd
import Verif.Props.Gone

namespace Bsp
open Frame Json Transport
open Link (Move LinkStep Side)
open Conn (Dbg reply)
open Session (Proc App onRecv onSent toSend kindOf)
open EndToEnd (World side)
open Flow (Caps Asks Lets Turn)

section
variable [LawfulExt] [Dbg] [FloatText] {process : InitializeBuild → Option Value}
variable {c : Caps} {kc ks : Kind}

/-! ### Runs with finite buffers are runs -/

theorem flow_steps {u w : World} {as : List EndToEnd.Ev} (h : Flow.Steps c kc ks process u as w) :
    EndToEnd.Steps kc ks process u as w := by
  induction h with
  | nil => exact .nil _
  | snoc _ hs ih => exact .snoc ih hs.step

theorem flow_append {u v w : World} {as bs : List EndToEnd.Ev}
    (h1 : Flow.Steps c kc ks process u as v) (h2 : Flow.Steps c kc ks process v bs w) :
    Flow.Steps c kc ks process u (as ++ bs) w := by
  induction h2 with
  | nil => simpa using h1
  | snoc _ h4 ih => rw [← List.append_assoc]; exact .snoc ih h4

theorem flow_settles (c : Caps) (kc ks : Kind) (process : InitializeBuild → Option Value) (w : World) :
    ∃ as u, Flow.Steps c kc ks process w as u ∧ Flow.Quiet c kc ks process u ∧ ∀ a ∈ as, a.free = false := by
  refine (C96_terminates kc ks process).induction (C := fun w => ∃ as u, Flow.Steps c kc ks process w as u ∧
    Flow.Quiet c kc ks process u ∧ ∀ a ∈ as, a.free = false) w ?_
  intro w ih
  by_cases hq : Flow.Quiet c kc ks process w
  · exact ⟨[], w, .nil w, hq, by simp⟩
  simp only [Flow.Quiet, Classical.not_forall, Bool.not_eq_true] at hq
  obtain ⟨a, u, h1, h2⟩ := hq
  obtain ⟨as, r, h3, h4, h5⟩ := ih u ⟨a, by rintro e rfl; exact h2, h1.step⟩
  refine ⟨[a] ++ as, r, flow_append (.snoc (.nil _) h1) h3, h4, ?_⟩
  intro b hb
  rcases List.mem_append.1 hb with hb | hb
  · rw [List.mem_singleton.1 hb]; exact h2
  · exact h5 b hb

omit [Dbg] in
/-- What a step of one side writes and takes. -/
theorem move_flow {k k' : Kind} {x y x' : Side} {ev : Link.Ev} (h : Move k k' x y ev x') :
    x.gone = false ∧ (x'.io.out = x.io.out ∨ ∃ b r, x.io.writer = .writing (b :: r)) ∧
    (x'.io.arrived = x.io.arrived ∨ ∃ bs, bs ≠ [] ∧ x.io.arrived ++ bs <+: y.io.out) := by
  cases h with
  | own h0 h1 h2 _ _ =>
    refine ⟨h0, ?_, ?_⟩
    · cases h1 with
      | read r => cases r <;> exact .inl rfl
      | write a b i1 i2 =>
        cases a with
        | nil => exact absurd rfl i2
        | cons z a => exact .inr ⟨z, a ++ b, i1⟩
      | _ => exact .inl rfl
    · cases h1 with
      | read r => cases r <;> exact .inl rfl
      | arrive bs => exact absurd rfl (h2 bs)
      | _ => exact .inl rfl
  | arrive h0 h1 h2 h3 => cases h3; exact ⟨h0, .inl rfl, .inr ⟨_, h1, h2⟩⟩
  | fin h0 _ _ h1 => cases h1; exact ⟨h0, .inl rfl, .inl rfl⟩
  | reset h0 _ _ _ h1 => cases h1; exact ⟨h0, .inl rfl, .inl rfl⟩
  | fails h0 _ _ _ h1 => cases h1; exact ⟨h0, .inl rfl, .inl rfl⟩
  | exit h0 => exact ⟨h0, .inl rfl, .inl rfl⟩

/-! ### At rest with finite buffers means at rest -/

/-- What is known of the two processes: the client is there and receives; a thread that has ended, or an input that has,
leaves nothing on its way. -/
structure Calm (w : World) : Prop where
  gone : w.client.gone = false
  rx : w.client.io.rxAlive = true
  mainS : w.server.io.rxAlive = false ∨ w.server.io.txAlive = false → ∃ r, w.server.app = .ended r
  wayS : w.server.io.arrived <+: w.client.io.out
  wayC : w.client.io.arrived <+: w.server.io.out
  endC : w.client.io.reader.ended = true → w.client.io.arrived = w.server.io.out
  inC : w.client.io.inEnd = none ∨ w.client.io.arrived = w.server.io.out
  endS : w.server.exit = none → w.server.io.reader.ended = true → w.server.io.arrived = w.client.io.out
  inS : w.server.exit = none → w.server.io.inEnd = none ∨ w.server.io.reader.ended = true

/-- Neither process can do anything, nothing is on its way and nothing waits to be written. -/
structure Still (w : World) : Prop where
  toC : w.client.io.arrived = w.server.io.out
  toS : w.server.exit = none → w.server.io.arrived = w.client.io.out
  writeC : ∀ b r, w.client.io.writer ≠ .writing (b :: r)
  writeS : w.server.exit = none → ∀ b r, w.server.io.writer ≠ .writing (b :: r)

omit [FloatText] in
theorem app_cases (a : App) : a.receives = true ∨ (∃ m, toSend a = some m) ∨ ∃ r, a = .ended r := by
  cases a <;> simp [App.receives, toSend]

theorem quiet_still (hc : 1 ≤ c.toRight) (hc' : 1 ≤ c.toLeft) {w : World} (h : Calm w)
    (hq : Flow.Quiet c kc ks process w) : Still w := by
  have noC : ∀ {act io}, Link.Ev.app (.act act) = false →
      Move kc ks w.client (side w.server) (.act act) { w.client with io } →
      (io.out = w.client.io.out ∨ io.out.length ≤ w.server.io.arrived.length + c.toRight) →
      (io.arrived = w.client.io.arrived ∨ Asks w.client.io) → False := by
    intro act io h1 h2 h3 h4
    have := hq (.client (.act act)) _ ⟨.client h2, ⟨h3, .inl rfl, h4, .inl rfl⟩⟩
    simp only [EndToEnd.Ev.free, h1] at this
    cases this
  have noS : ∀ {a q}, Session.Step ks process w.server a q → a ≠ .timeout →
      (a = .peer ∨ a = .writeFails →
        ∃ act, kindOf act = some a ∧ Link.Move ks kc (side w.server) w.client (.act act) (side q)) →
      (q.io.out = w.server.io.out ∨ q.io.out.length ≤ w.client.io.arrived.length + c.toLeft) →
      (q.io.arrived = w.server.io.arrived ∨ Asks w.server.io) → False := by
    intro a q h1 h2 h3 h4 h5
    have := hq (.server a) _ ⟨.server h1 h3, ⟨.inl rfl, h4, .inl rfl, h5⟩⟩
    cases a <;> first | exact h2 rfl | cases this
  have toC : w.client.io.arrived = w.server.io.out := by
    cases e : w.client.io.reader with
    | sending m => exact (noC rfl (.own h.gone (.deliver _ m e h.rx) (by simp) (by simp) (by simp)) (.inl rfl) (.inl rfl)).elim
    | reading =>
      by_cases hs : ∃ r, Settled w.client.io r
      · obtain ⟨r, hs⟩ := hs
        exact (noC rfl (.own h.gone (.read _ r e hs) (by simp) (by simp) (by simp))
          (by cases r <;> exact .inl rfl) (by cases r <;> exact .inl rfl)).elim
      · have hs : ∀ r, ¬ Settled w.client.io r := fun r hr => hs ⟨r, hr⟩
        rcases h.inC with hi | hi
        · obtain ⟨t, ht⟩ := h.wayC
          by_cases hne : t = []
          · rw [← ht, hne, List.append_nil]
          · exact (noC rfl (.arrive h.gone hne (by simp only [side]; rw [ht]; exact List.prefix_refl _)
              (.arrive _ t hi)) (.inl rfl) (.inr ⟨e, hs⟩)).elim
        · exact hi
    | _ => exact h.endC (by rw [e]; rfl)
  have writeS : w.server.exit = none → ∀ b r, w.server.io.writer ≠ .writing (b :: r) := by
    intro hx b r e
    refine noS (.io hx (.write _ [b] r e (by simp)) rfl) (by simp) (by simp) (.inr ?_) (.inl rfl)
    simp only [List.length_append, List.length_singleton, toC]
    omega
  have toS : w.server.exit = none → w.server.io.arrived = w.client.io.out := by
    intro hx
    cases e : w.server.io.reader with
    | sending m =>
      exfalso
      cases hr : w.server.io.rxAlive with
      | false => exact noS (.io hx (.undeliverable _ m e hr) rfl) (by simp) (by simp) (.inl rfl) (.inl rfl)
      | true =>
        rcases app_cases w.server.app with ha | ⟨n, ha⟩ | ⟨r, ha⟩
        · exact noS (.recv hx ha (.deliver _ m e hr)) (by simp) (by simp) (.inl rfl) (.inl rfl)
        · cases ew : w.server.io.writer with
          | idle =>
            cases ht : w.server.io.txAlive with
            | true => exact noS (.send hx ha (.accept _ n ew ht)) (by simp) (by simp) (.inl rfl) (.inl rfl)
            | false =>
              obtain ⟨r, hr⟩ := h.mainS (.inr ht)
              rw [hr] at ha; cases ha
          | writing r =>
            cases r with
            | nil => exact noS (.io hx (.written _ ew) rfl) (by simp) (by simp) (.inl rfl) (.inl rfl)
            | cons b r => exact writeS hx b r ew
          | _ => exact noS (.unsent hx ha (by rw [ew]; rfl)) (by simp) (by simp) (.inl rfl) (.inl rfl)
        · exact noS (.dropRx hx ha hr) (by simp) (by simp) (.inl rfl) (.inl rfl)
    | reading =>
      by_cases hs : ∃ r, Settled w.server.io r
      · obtain ⟨r, hs⟩ := hs
        exact (noS (.io hx (.read _ r e hs) rfl) (by simp) (by simp)
          (by cases r <;> exact .inl rfl) (by cases r <;> exact .inl rfl)).elim
      · have hs : ∀ r, ¬ Settled w.server.io r := fun r hr => hs ⟨r, hr⟩
        rcases h.inS hx with hi | hi
        · obtain ⟨t, ht⟩ := h.wayS
          by_cases hne : t = []
          · rw [← ht, hne, List.append_nil]
          · have hst := Transport.Step.arrive (k := ks) w.server.io t hi
            exact (noS (.io hx hst rfl) (by simp) (fun _ => ⟨_, rfl,
              .arrive (by simp [side, hx]) hne (by simp only [side]; rw [ht]; exact List.prefix_refl _) hst⟩)
              (.inl rfl) (.inr ⟨e, hs⟩)).elim
        · rw [e] at hi; cases hi
    | _ => exact h.endS hx (by rw [e]; rfl)
  refine ⟨toC, toS, ?_, writeS⟩
  intro b r e
  cases hx : w.server.exit with
  | none =>
    refine noC rfl (.own h.gone (.write _ [b] r e (by simp)) (by simp) (by simp) (by simp)) (.inr ?_) (.inl rfl)
    simp only [List.length_append, List.length_singleton, toS hx]
    omega
  | some v =>
    exact noC rfl (.fails h.gone (by simp [side, Side.closed, hx]) e (by simp) (.writeFails _ _ e)) (.inl rfl) (.inl rfl)

/-- Then more room would not help. -/
theorem still_quiet {w : World} (h : Still w) (hq : Flow.Quiet c kc ks process w) : EndToEnd.Quiet kc ks process w := by
  intro a v hs
  refine hq a v ⟨hs, ?_⟩
  cases hs with
  | client hm =>
    obtain ⟨_, h1, h2⟩ := move_flow hm
    refine ⟨.inl ?_, .inl rfl, .inl ?_, .inl rfl⟩
    · rcases h1 with h1 | ⟨b, r, h1⟩
      · exact h1
      · exact absurd h1 (h.writeC b r)
    · rcases h2 with h2 | ⟨bs, h2, h3⟩
      · exact h2
      · simp only [side, h.toC] at h3
        exact absurd (List.length_eq_zero_iff.1 (by have := h3.length_le; rw [List.length_append] at this; omega)) h2
  | server hst hpe =>
    obtain ⟨hx, hm⟩ := server_move hst hpe
    rcases hm with hm | ⟨ev, hm⟩
    · simp only [Flow.sides, hm]
      exact ⟨.inl rfl, .inl rfl, .inl rfl, .inl rfl⟩
    obtain ⟨_, h1, h2⟩ := move_flow hm
    refine ⟨.inl rfl, .inl ?_, .inl rfl, .inl ?_⟩
    · rcases h1 with h1 | ⟨b, r, h1⟩
      · exact h1
      · exact absurd h1 (h.writeS hx b r)
    · rcases h2 with h2 | ⟨bs, h2, h3⟩
      · exact h2
      · simp only [side, h.toS hx] at h3
        exact absurd (List.length_eq_zero_iff.1 (by have := h3.length_le; rw [List.length_append] at this; omega)) h2

variable {said : List Message} {early : List Request} {id : RequestId} {ip : InitializeBuild} {v : Value}
  {pre : List Message}

theorem talking_calm {w : World} {bs : List Session.Act} (h : Talking kc ks process bs w) (ht : Spec.Says said w) :
    Calm w := by
  obtain ⟨_, _, p3, p4⟩ := pair_inv (link_pair h.link)
  exact ⟨ht.gone, ht.rx, (mainInv h.sess).gone, p3, p4, by simp [h.readC], .inl h.inC, by simp [h.readS],
    fun _ => .inl h.inS⟩

theorem going_calm {w : World} {bs : List Session.Act} (h : Going kc ks process said bs w) : Calm w := by
  obtain ⟨_, p2, p3, p4⟩ := pair_inv (link_pair h.link)
  have hi := leaveInv h.link h.leaving
  obtain ⟨rA, rB⟩ := leave_reader h.link h.leaving hi
  refine ⟨h.leaving.gone.1, h.leaving.rxA, (mainInv h.sess).gone, p3, p4, ?_, ?_, ?_, ?_⟩
  · intro e
    rcases hi.inA with h1 | ⟨_, _, h1⟩
    · rw [(rA e).2.1] at h1; cases h1
    · exact h1
  · exact hi.inA.imp id (fun h1 => h1.2.2)
  · intro _ e
    exact (exit_received (link_pair h.link) h.leaving.okA h.leaving.before h.leaving.sentA (rB e).2).2.2.2.1
  · intro _
    cases e : w.server.io.inEnd with
    | none => exact .inl rfl
    | some b =>
      have := (C52_exit p2 (hi.inB (by simp [linkOf, side, e]))).1
      simp only [linkOf, side] at this
      exact .inr (by rw [this]; rfl)

/-- C122: whatever the sizes of the buffers, if they can hold a byte: what C96 says. -/
theorem C122_served (hc : 1 ≤ c.toRight) (hc' : 1 ≤ c.toLeft) (hp : Spec.Plan process said early id ip v pre) {w : World}
    {as : List EndToEnd.Ev} (h : Flow.Steps c kc ks process {} as w) (hg : w.client.gone = false)
    (hx : w.client.io.accepted = said ++ [.notification .exit]) (hr : w.client.io.rxAlive = true)
    (ht : w.client.io.txAlive = false) (hq : Flow.Quiet c kc ks process w) :
    w.server.exit = some true ∧ join kc w.client.io = .ok ∧
    ∃ ms, Spec.Served early id v (Spec.requests pre) ms ∧ w.client.io.delivered = ms.map Message.norm := by
  obtain ⟨bs, hgo⟩ := going hp (flow_steps h) ⟨hg, hr, by rw [hx]; exact List.prefix_refl _⟩
  exact C96_served hp (flow_steps h) hg hx hr ht (still_quiet (quiet_still hc hc' (going_calm hgo) hq) hq)

/-- C122: and what C97 says, without exit. -/
theorem C122_rest (hc : 1 ≤ c.toRight) (hc' : 1 ≤ c.toLeft) (hp : Spec.Plan process said early id ip v pre) {w : World}
    {as : List EndToEnd.Ev} (h : Flow.Steps c kc ks process {} as w) (hg : w.client.gone = false)
    (hr : w.client.io.rxAlive = true) (hs : w.client.io.accepted = said) (hq : Flow.Quiet c kc ks process w) :
    ∃ ms, Spec.Served early id v (Spec.requests pre) ms ∧ w.client.io.delivered = ms.map Message.norm := by
  have ht : Spec.Says said w := ⟨hg, hr, by rw [hs]; exact List.prefix_refl _⟩
  obtain ⟨bs, hgo⟩ := talking hp (flow_steps h) ht
  exact C97_rest hp (flow_steps h) hg hr hs (still_quiet (quiet_still hc hc' (talking_calm hgo ht) hq) hq)

/-- C122: meanwhile, each message that the client goes on to send is taken in time: when nothing else can happen, the
writer thread takes the next one. -/
theorem C122_takes (hc : 1 ≤ c.toRight) (hc' : 1 ≤ c.toLeft) (hp : Spec.Plan process said early id ip v pre) {w : World}
    {as : List EndToEnd.Ev} (h : Flow.Steps c kc ks process {} as w) (hg : w.client.gone = false)
    (hr : w.client.io.rxAlive = true) (ht : w.client.io.txAlive = true) (hs : w.client.io.accepted <+: said)
    (hq : Flow.Quiet c kc ks process w) (m : Message) :
    ∃ u, Flow.Step c kc ks process w (.client (.act (.accept m))) u ∧ u.client.io.accepted = w.client.io.accepted ++ [m] := by
  have hsay : Spec.Says said w := ⟨hg, hr, hs⟩
  obtain ⟨bs, hgo⟩ := talking hp (flow_steps h) hsay
  have hst := quiet_still hc hc' (talking_calm hgo hsay) hq
  obtain ⟨p1, _⟩ := pair_inv (link_pair hgo.link)
  have idle : w.client.io.writer = .idle := by
    cases e : w.client.io.writer with
    | idle => rfl
    | failed => exact absurd e hgo.writeC.1
    | panicked => exact absurd e hgo.writeC.2
    | done =>
      have := writeInv p1
      simp only [WriteInv, linkOf, e] at this
      rw [this.2] at ht; cases ht
    | writing r =>
      cases r with
      | cons b r => exact absurd e (hst.writeC b r)
      | nil =>
        have := hq (.client (.act .written)) _ ⟨.client (.own hg (.written _ e) (by simp) (by simp) (by simp)),
          ⟨.inl rfl, .inl rfl, .inl rfl, .inl rfl⟩⟩
        cases this
  exact ⟨_, ⟨.client (.own hg (.accept _ m idle ht) (by simp) (by simp) (by simp)),
    ⟨.inl rfl, .inl rfl, .inl rfl, .inl rfl⟩⟩, rfl⟩

theorem flow_keeps {w u : World} {as : List EndToEnd.Ev} (h : Flow.Steps c kc ks process w as u)
    (hf : ∀ a ∈ as, a.free = false) :
    u.client.gone = w.client.gone ∧ u.client.io.accepted = w.client.io.accepted ∧
      u.client.io.rxAlive = w.client.io.rxAlive ∧ u.client.io.txAlive = w.client.io.txAlive :=
  world_keeps (flow_steps h) (fun _ he => hf _ he)

/-- With any buffers that hold a byte a client can send what it has to say. -/
theorem flow_says (hc : 1 ≤ c.toRight) (hc' : 1 ≤ c.toLeft) (hp : Spec.Plan process said early id ip v pre)
    (kc ks : Kind) (n : Nat) (hn : n ≤ said.length) : ∃ as w, Flow.Steps c kc ks process {} as w ∧ w.client.gone = false ∧
      w.client.io.rxAlive = true ∧ w.client.io.txAlive = true ∧ w.client.io.accepted = said.take n ∧
      Flow.Quiet c kc ks process w := by
  have settle : ∀ {as w ms}, Flow.Steps c kc ks process {} as w → w.client.gone = false →
      w.client.io.rxAlive = true → w.client.io.txAlive = true → w.client.io.accepted = ms → ∃ as w,
      Flow.Steps c kc ks process {} as w ∧ w.client.gone = false ∧ w.client.io.rxAlive = true ∧
      w.client.io.txAlive = true ∧ w.client.io.accepted = ms ∧ Flow.Quiet c kc ks process w := by
    intro as w ms h h1 h2 h3 h4
    obtain ⟨bs, u, h5, h6, h7⟩ := flow_settles c kc ks process w
    obtain ⟨k1, k2, k3, k4⟩ := flow_keeps h5 h7
    exact ⟨_, u, flow_append h h5, k1.trans h1, k3.trans h2, k4.trans h3, k2.trans h4, h6⟩
  induction n with
  | zero => exact settle (.nil _) rfl rfl rfl rfl
  | succ n ih =>
    obtain ⟨as, w, h, h1, h2, h3, h4, h5⟩ := ih (by omega)
    obtain ⟨u, h6, h7⟩ := C122_takes hc hc' hp h h1 h2 h3 (by rw [h4]; exact List.take_prefix ..) h5 (said[n]'(by omega))
    have keep : u.client.gone = false ∧ u.client.io.rxAlive = true ∧ u.client.io.txAlive = true := by
      have hs := h6.step
      cases hs with
      | client hm =>
        cases hm with
        | own i1 i2 => cases i2; exact ⟨i1, h2, h3⟩
    refine settle (.snoc h h6) keep.1 keep.2.1 keep.2.2 ?_
    rw [h7, h4, List.take_append_getElem]

/-- C122: so that, with any buffers that hold a byte, there is a run in which the client says all that it has to say and
leaves, and is served to the end. -/
theorem C122_ends (hc : 1 ≤ c.toRight) (hc' : 1 ≤ c.toLeft) (hp : Spec.Plan process said early id ip v pre) (kc ks : Kind) :
    ∃ as w, Flow.Steps c kc ks process {} as w ∧ w.client.io.accepted = said ++ [.notification .exit] ∧
    w.server.exit = some true ∧ join kc w.client.io = .ok ∧
    ∃ ms, Spec.Served early id v (Spec.requests pre) ms ∧ w.client.io.delivered = ms.map Message.norm := by
  obtain ⟨as, w, h, h1, h2, h3, h4, h5⟩ := flow_says hc hc' hp kc ks said.length (by omega)
  rw [List.take_length] at h4
  obtain ⟨u, h6, h7⟩ := C122_takes hc hc' hp h h1 h2 h3 (by rw [h4]; exact List.prefix_refl _) h5 (.notification .exit)
  have keep : u.client.gone = false ∧ u.client.io.rxAlive = true := by
    have hs := h6.step
    cases hs with
    | client hm =>
      cases hm with
      | own i1 i2 => cases i2; exact ⟨i1, h2⟩
  have h8 : Flow.Steps c kc ks process {} _ _ := .snoc (.snoc h h6)
    ⟨.client (.own keep.1 (.dropTx _) (by simp) (by simp) (by simp)), ⟨.inl rfl, .inl rfl, .inl rfl, .inl rfl⟩⟩
  obtain ⟨bs, x, h9, h10, h11⟩ := flow_settles c kc ks process { u with client := { u.client with io := { u.client.io with txAlive := false } } }
  obtain ⟨k1, k2, k3, k4⟩ := flow_keeps h9 h11
  have hacc := k2.trans (h7.trans (by rw [h4]))
  exact ⟨_, x, flow_append h8 h9, hacc,
    C122_served hc hc' hp (flow_append h8 h9) (k1.trans keep.1) hacc (k3.trans keep.2) k4 h10⟩

/-! ### How far one side can be ahead of the other -/

/-- What holds of the bytes from `x` to `y`. -/
def Within (cap : Nat) (x y : State) : Prop :=
  x.out.length ≤ y.arrived.length + cap ∧
    y.arrived.length ≤ ((x.accepted.take (y.delivered.length + 1)).flatMap Frame.write).length + cap

omit [Dbg] in
theorem heard_more (ms : List Message) (h : ∀ m ∈ ms, Spec.Sayable m) (rest : Bytes) (b : Bool) :
    (readAll (⟨ms.flatMap Frame.write ++ rest, b⟩ : Flat)).1 = ms.map Spec.heard ++ (readAll (⟨rest, b⟩ : Flat)).1 := by
  induction ms with
  | nil => rfl
  | cons m ms ih =>
    rw [List.flatMap_cons, List.append_assoc, readAll_eq, C13_heard (h m (by simp))]
    simp [ih (fun x hx => h x (List.mem_cons_of_mem _ hx))]

omit [Dbg] in
/-- A reader that asks for more has less than a message more than it has delivered. -/
theorem asks_short {ka kb : Kind} {p : Pair} (h : PairReachable ka kb p) (ha : ∀ m ∈ p.a.accepted, Spec.Sayable m)
    (hk : Asks p.b) :
    p.b.arrived.length ≤ ((p.a.accepted.take (p.b.delivered.length + 1)).flatMap Frame.write).length := by
  obtain ⟨h1, h2, h3, _⟩ := pair_inv h
  obtain ⟨⟨used, ps, hu, hp, hc⟩, _, _⟩ := (readInv h2).1
  simp only [Spec.Pending, hk.1] at hp
  subst hp
  rw [List.append_nil] at hc
  have hno : ¬ ∃ s', Step kb p.b .read s' := by
    rintro ⟨s', hs⟩
    cases hs with
    | read r _ hr => exact hk.2 r hr
  have hpre := h3.trans (C53_output h1).1
  by_cases hd : p.a.accepted.length ≤ p.b.delivered.length + 1
  · rw [List.take_of_length_le hd]
    exact hpre.length_le
  have htake : (p.a.accepted.take (p.b.delivered.length + 1)).flatMap Frame.write <+: p.a.accepted.flatMap Frame.write :=
    flatMap_prefix (List.take_prefix ..)
  rcases List.prefix_or_prefix_of_prefix hpre htake with h4 | h4
  · exact h4.length_le
  exfalso
  obtain ⟨t, ht⟩ := h4
  have e1 := heard_more (p.a.accepted.take (p.b.delivered.length + 1)) (fun m hm => ha m (List.mem_of_mem_take hm)) t false
  rw [ht, hu, readAll_carries hc] at e1
  have e2 := congrArg List.length e1
  simp only [nothing_whole hk.1 hno, List.length_append, List.length_map, List.length_take, List.length_nil] at e2
  omega

omit [Dbg] in
theorem flow_reachable {ka kb : Kind} {l : Link.Link} (h : Flow.Reachable c ka kb l) : Link.Reachable ka kb l := by
  induction h with
  | start => exact .start
  | step _ hs _ ih => exact .step ih hs

omit [Dbg] in
theorem within_step {ka kb : Kind} {cap : Nat} {x y x' y' : State} (hp : PairReachable ka kb ⟨x, y⟩)
    (hp' : PairReachable ka kb ⟨x', y'⟩) (ok : ∀ m ∈ x.accepted, Spec.Sayable m) (hi : Within cap x y)
    (ga : x.accepted <+: x'.accepted) (gd : y.delivered <+: y'.delivered) (gr : y.arrived <+: y'.arrived)
    (ho : x'.out = x.out ∨ x'.out.length ≤ y.arrived.length + cap) (ht : y'.arrived = y.arrived ∨ x'.out = x.out ∧ Asks y) :
    Within cap x' y' := by
  obtain ⟨h1, h2⟩ := hi
  have hlen := gr.length_le
  have hmono : ((x.accepted.take (y.delivered.length + 1)).flatMap Frame.write).length ≤
      ((x'.accepted.take (y'.delivered.length + 1)).flatMap Frame.write).length := by
    refine (flatMap_prefix ?_).length_le
    obtain ⟨t, ht⟩ := ga
    have hd := gd.length_le
    rw [← ht]
    rw [List.take_append]
    exact (List.take_prefix_take_left (by omega)).trans (List.prefix_append _ _)
  refine ⟨?_, ?_⟩
  · rcases ho with h | h
    · rw [h]; omega
    · omega
  · rcases ht with h | ⟨h, hk⟩
    · rw [h]; omega
    · have h3 := asks_short hp ok hk
      have h4 := (pair_inv hp').2.2.1.length_le
      simp only at h3 h4
      rw [h] at h4
      omega

omit [Dbg] in
theorem move_arrives {k k' : Kind} {x y x' : Side} {ev : Link.Ev} (h : Move k k' x y ev x') :
    x.io.arrived <+: x'.io.arrived := by
  rcases move_step h with ⟨act, _, h1, _⟩ | ⟨_, h1⟩
  · generalize x'.io = s at h1 ⊢
    cases h1 with
    | arrive bs => exact List.prefix_append _ _
    | read r => cases r <;> exact List.prefix_refl _
    | _ => exact List.prefix_refl _
  · rw [h1]; exact List.prefix_refl _

omit [Dbg] in
theorem flow_within {ka kb : Kind} {l : Link.Link} (h : Flow.Reachable c ka kb l)
    (okA : ∀ m ∈ l.a.io.accepted, Spec.Sayable m) : Within c.toRight l.a.io l.b.io := by
  induction h with
  | start => exact ⟨by simp, by simp⟩
  | @step l ev l' hr hs hl ih =>
    have g := link_grows hs
    have ok : ∀ m ∈ l.a.io.accepted, Spec.Sayable m := fun m hm => okA m (g.1.accepted.subset hm)
    refine within_step (link_pair (flow_reachable hr)) (link_pair (.step (flow_reachable hr) hs)) ok (ih ok) g.1.accepted
      g.2.delivered ?_ hl.right ?_
    · cases hs with
      | left hm => exact List.prefix_refl _
      | right hm => exact move_arrives hm
    · cases hs with
      | left hm => exact .inl rfl
      | right hm => exact hl.takesB.imp id (fun h => ⟨rfl, h⟩)

omit [Dbg] in
theorem flow_swap {ka kb : Kind} {l : Link.Link} (h : Flow.Reachable c ka kb l) :
    Flow.Reachable ⟨c.toLeft, c.toRight⟩ kb ka ⟨l.b, l.a⟩ := by
  induction h with
  | start => exact .start
  | @step l ev l' _ hs hl ih =>
    refine .step (ev := ev) ih ?_ ⟨hl.left, hl.right, hl.takesB, hl.takesA⟩
    cases hs with
    | left hm => exact .right (l := ⟨l.b, l.a⟩) hm
    | right hm => exact .left (l := ⟨l.b, l.a⟩) hm

omit [Dbg] [LawfulExt] in
/-- The header alone has 21 bytes: `Content-Length: `, a digit or more, and two line ends. -/
theorem write_long [Ext] (m : Message) : 21 ≤ (Frame.write m).length := by
  unfold Frame.write Frame.frame
  generalize hn : (utf8 (Frame.msgText m)).length = n
  have h1 : ∀ cs : List Char, cs.length ≤ (utf8 cs).length := by
    intro cs
    induction cs with
    | nil => simp
    | cons c cs ih =>
      have := Char.utf8Size_pos c
      simp only [utf8, List.flatMap_cons, List.length_append, List.length_cons, String.length_utf8EncodeChar] at ih ⊢
      omega
  have h2 : 1 ≤ (Nat.toDigits 10 n).length := Nat.length_toDigits_pos
  have h3 := h1 ("Content-Length: ".toList ++ Nat.toDigits 10 n ++ ['\r', '\n', '\r', '\n'])
  have h4 : "Content-Length: ".toList.length = 16 := by decide
  simp only [List.length_append, h4, List.length_cons, List.length_nil] at h3 ⊢
  omega

omit [Dbg] [LawfulExt] in
theorem count_bytes [Ext] (ms : List Message) : 21 * ms.length ≤ (ms.flatMap Frame.write).length := by
  induction ms with
  | nil => simp
  | cons m ms ih =>
    have := write_long m
    simp only [List.flatMap_cons, List.length_append, List.length_cons]
    omega

omit [Dbg] in
theorem within_ahead {k : Kind} {cap : Nat} {x y : State} (hr : Reachable k x) (h : Within cap x y) :
    ((x.accepted.drop (y.delivered.length + 1)).dropLast.flatMap Frame.write).length ≤ 2 * cap ∧
    x.accepted.length ≤ y.delivered.length + 2 * cap / 21 + 2 := by
  obtain ⟨h1, h2⟩ := h
  have h3 := (C53_output hr).2.length_le
  have e : ((x.accepted.drop (y.delivered.length + 1)).dropLast.flatMap Frame.write).length ≤ 2 * cap := by
    by_cases hd : x.accepted.length ≤ y.delivered.length + 1
    · rw [List.drop_of_length_le hd]; simp
    · have : x.accepted.dropLast = x.accepted.take (y.delivered.length + 1) ++
          (x.accepted.drop (y.delivered.length + 1)).dropLast := by
        rw [← List.dropLast_append_of_ne_nil (by
          intro h; have := congrArg List.length h; simp only [List.length_drop, List.length_nil] at this; omega),
          List.take_append_drop]
      rw [this, List.flatMap_append, List.length_append] at h3
      omega
  refine ⟨e, ?_⟩
  have := count_bytes (x.accepted.drop (y.delivered.length + 1)).dropLast
  simp only [List.length_dropLast, List.length_drop] at this
  omega

omit [Dbg] in
/-- C122: what one side has sent is ahead of what the other side's application has received by a message that is
being handed over, one that is being written, and as many more as have twice the bytes of the buffer: as many in the
buffer, and as many that the reader thread has read too many. -/
theorem C122_ahead {ka kb : Kind} {l : Link.Link} (h : Flow.Reachable c ka kb l)
    (okA : ∀ m ∈ l.a.io.accepted, Spec.Sayable m) (okB : ∀ m ∈ l.b.io.accepted, Spec.Sayable m) :
    (((l.a.io.accepted.drop (l.b.io.delivered.length + 1)).dropLast.flatMap Frame.write).length ≤ 2 * c.toRight ∧
      l.a.io.accepted.length ≤ l.b.io.delivered.length + 2 * c.toRight / 21 + 2) ∧
    (((l.b.io.accepted.drop (l.a.io.delivered.length + 1)).dropLast.flatMap Frame.write).length ≤ 2 * c.toLeft ∧
      l.b.io.accepted.length ≤ l.a.io.delivered.length + 2 * c.toLeft / 21 + 2) := by
  obtain ⟨r1, r2, _⟩ := pair_inv (link_pair (flow_reachable h))
  exact ⟨within_ahead r1 (flow_within h okA), within_ahead r2 (flow_within (flow_swap h) okB)⟩

/-! ### A client with one thread -/

theorem turns_steps {script : List Message} {u w : World} {as : List EndToEnd.Ev}
    (h : Flow.Turns c kc ks process script u as w) : Flow.Steps c kc ks process u as w := by
  induction h with
  | nil => exact .nil _
  | snoc _ hs _ ih => exact .snoc ih hs

/-- The connection and the server. -/
theorem flow_inv {w : World} {as : List EndToEnd.Ev} (h : Flow.Steps c kc ks process {} as w) :
    Flow.Reachable c kc ks (Flow.sides w) ∧ ∃ bs, Session.Steps ks process {} bs w.server := by
  have key : ∀ {w0 w : World} {as}, Flow.Steps c kc ks process w0 as w → w0 = ({} : World) →
      Flow.Reachable c kc ks (Flow.sides w) ∧ ∃ bs, Session.Steps ks process {} bs w.server := by
    intro w0 w as h
    induction h with
    | nil => intro e; subst e; exact ⟨.start, [], .nil _⟩
    | snoc _ hs ih =>
      intro e
      obtain ⟨h1, bs, h2⟩ := ih e
      obtain ⟨hs, hl⟩ := hs
      cases hs with
      | client hm => exact ⟨.step h1 (.left (l := Flow.sides _) hm) hl, bs, h2⟩
      | server hst hpe =>
        refine ⟨?_, _, .snoc h2 hst⟩
        rcases (server_move hst hpe).2 with hm | ⟨ev, hm⟩
        · simpa only [Flow.sides, hm] using h1
        · exact .step h1 (.right (l := Flow.sides _) hm) hl
  exact key h rfl

/-- As long as the client can send, no write of the server has failed. -/
theorem writes_well {w : World} {as : List EndToEnd.Ev} (h : Flow.Steps c kc ks process {} as w)
    (hg : w.client.gone = false) (hw : w.client.io.writer.ended = false) :
    w.server.io.writer ≠ .failed ∧ w.server.io.writer ≠ .panicked := by
  have key : ∀ {w0 w : World} {as}, Flow.Steps c kc ks process w0 as w → w0 = ({} : World) →
      w.client.gone = false → w.client.io.writer.ended = false →
      w.server.io.writer ≠ .failed ∧ w.server.io.writer ≠ .panicked := by
    intro w0 w as h
    induction h with
    | nil => intro e; subst e; simp
    | @snoc as w a w' _ hs ih =>
      intro e hg hw
      obtain ⟨hs, hl⟩ := hs
      cases hs with
      | client hm =>
        have g := move_grows hm
        refine ih e ?_ ?_
        · cases hgo : w.client.gone with
          | false => rfl
          | true => rw [g.gone hgo] at hg; cases hg
        · cases hwr : w.client.io.writer.ended with
          | false => rfl
          | true => rw [g.writer hwr, hwr] at hw; cases hw
      | server hst hpe =>
        have h0 := ih e hg hw
        rcases (server_move hst hpe).2 with hm | ⟨ev, hm⟩
        · have := congrArg (fun x : Side => x.io.writer) hm
          simp only [side] at this ⊢
          rw [this]; exact h0
        · exact open_writer hm h0 (by simp only [Side.closed] at hg hw ⊢; simp [hg, hw])
  exact key h rfl hg hw

omit [FloatText] in
/-- A message is answered at most once. -/
theorem feed_count (a : App) (ms : List Message) : (feed process a ms).2.length ≤ ms.length := by
  induction ms generalizing a with
  | nil => simp [feed]
  | cons m ms ih =>
    have h1 := ih (round process a m).1
    have h2 : (round process a m).2.length ≤ 1 := by unfold round; split <;> simp
    simp only [feed, List.length_append, List.length_cons]
    omega

/-- The number of messages sent and received when a send succeeds. -/
theorem sent_bound {script : List Message} {w : World} {as : List EndToEnd.Ev}
    (h : Flow.Steps c kc ks process {} as w) (hg : w.client.gone = false) (hw : w.client.io.writer.ended = false)
    (ok : ∀ m ∈ script, Spec.Sayable m) (hacc : w.client.io.accepted <+: script)
    (hans : ∀ m ∈ Spec.answers process (script.map Spec.heard), Spec.Carried m) (hd : w.client.io.delivered = []) :
    (Spec.answers process (w.client.io.accepted.map Spec.heard)).length ≤ 2 * c.toRight / 21 + 2 * c.toLeft / 21 + 5 := by
  obtain ⟨hr, bs, hs⟩ := flow_inv h
  have hpair := link_pair (flow_reachable hr)
  have okA : ∀ m ∈ w.client.io.accepted, Spec.Sayable m := fun m hm => ok m (hacc.subset hm)
  have hheard := C56_heard hpair okA
  simp only [Flow.sides, side] at hheard
  have hm := mainInv hs
  have hsub : w.server.io.accepted <+: Spec.answers process (script.map Spec.heard) := by
    refine hm.sent.trans ?_
    rw [← answers_eq]
    refine answers_prefix (hheard.trans ?_)
    obtain ⟨t, rfl⟩ := hacc
    rw [List.map_append]
    exact List.prefix_append _ _
  have okB : ∀ m ∈ w.server.io.accepted, Spec.Sayable m := by
    intro m hm
    have h1 := hsub.subset hm
    have h2 := hans m h1
    rw [answers_eq] at h1
    obtain ⟨r, rfl⟩ := feed_responses _ _ _ h1
    exact ⟨.inl trivial, h2⟩
  obtain ⟨⟨_, h1⟩, ⟨_, h2⟩⟩ := C122_ahead hr okA okB
  simp only [Flow.sides, side, hd, List.length_nil] at h1 h2
  have hwr := writes_well h hg hw
  have hat := hm.at' (by cases ks <;> first | exact hwr.1 | exact hwr.2)
  have h3 : (feed process .start w.server.io.delivered).2.length ≤ w.server.io.accepted.length + 1 := by
    cases hat with
    | rest _ h => rw [← h]; omega
    | sending _ _ h => rw [h]; simp
    | closed _ _ _ _ h => rw [← h]; omega
    | late _ _ _ h => rw [← h]; omega
  obtain ⟨t, ht⟩ := hheard
  have h4 := feed_count (process := process) (feed process .start w.server.io.delivered).1 t
  have h5 := congrArg List.length ht
  simp only [List.length_append, List.length_map] at h5
  rw [answers_eq, ← ht, feed_append, List.length_append]
  omega

/-- C122: a client with one thread, that first sends and then receives, never gets to the end of its sends if there are
so many answers to what it sends that they do not fit into the buffers; and it never receives anything. -/
theorem C122_never {script : List Message} {w : World} {as : List EndToEnd.Ev}
    (h : Flow.Turns c kc ks process script {} as w) (ok : ∀ m ∈ script, Spec.Sayable m)
    (hans : ∀ m ∈ Spec.answers process (script.map Spec.heard), Spec.Carried m)
    (hmany : 2 * c.toRight / 21 + 2 * c.toLeft / 21 + 6 ≤ (Spec.answers process (script.map Spec.heard)).length) :
    w.client.io.delivered = [] ∧ w.client.io.accepted <+: script ∧ w.client.io.accepted ≠ script ∧
    (Spec.answers process (w.client.io.accepted.map Spec.heard)).length ≤ 2 * c.toRight / 21 + 2 * c.toLeft / 21 + 5 := by
  have key : ∀ {w0 w : World} {as}, Flow.Turns c kc ks process script w0 as w → w0 = ({} : World) →
      w.client.io.delivered = [] ∧ w.client.io.accepted <+: script ∧
      (Spec.answers process (w.client.io.accepted.map Spec.heard)).length ≤ 2 * c.toRight / 21 + 2 * c.toLeft / 21 + 5 := by
    intro w0 w as h
    induction h with
    | nil =>
      intro e; subst e
      refine ⟨rfl, List.nil_prefix, ?_⟩
      rw [answers_eq]; simp [feed]
    | @snoc as w a w' h0 hs ht ih =>
      intro e
      subst e
      obtain ⟨h1, h2, h3⟩ := ih rfl
      have hne : w.client.io.accepted ≠ script := by rintro rfl; omega
      have h4 := Flow.Steps.snoc (turns_steps h0) hs
      obtain ⟨hs, hl⟩ := hs
      cases hs with
      | server => exact ⟨h1, h2, h3⟩
      | client hm =>
        cases hm with
        | own hg hst _ _ _ =>
          cases hst with
          | accept m i1 i2 => exact ⟨h1, ht, sent_bound h4 hg rfl ok ht hans h1⟩
          | deliver m => exact absurd ht hne
          | read r => cases r <;> exact ⟨h1, h2, h3⟩
          | _ => exact ⟨h1, h2, h3⟩
        | arrive _ _ _ hst => cases hst; exact ⟨h1, h2, h3⟩
        | fin _ _ _ hst => cases hst; exact ⟨h1, h2, h3⟩
        | reset _ _ _ _ hst => cases hst; exact ⟨h1, h2, h3⟩
        | fails _ _ _ _ hst => cases hst; exact ⟨h1, h2, h3⟩
        | exit => exact ⟨h1, h2, h3⟩
  obtain ⟨h1, h2, h3⟩ := key h rfl
  exact ⟨h1, h2, by rintro rfl; omega, h3⟩

/-- Everybody waits: the thread of the client, which sends, for the writer thread of the client, this one for the reader
thread of the server to take bytes, this one for the main thread of the server to receive, this one for the writer thread
of the server, this one for the reader thread of the client to take bytes, and this one for the thread of the client to
receive. -/
structure Spec.Circle (w : World) : Prop where
  clientWrites : ∃ b r, w.client.io.writer = .writing (b :: r)
  serverHands : ∃ m, w.server.io.reader = .sending m
  serverSends : w.server.app.receives = false ∧ ∃ m, toSend w.server.app = some m
  serverWrites : ∃ b r, w.server.io.writer = .writing (b :: r)
  clientHands : ∃ m, w.client.io.reader = .sending m

theorem stuck_circle (hc : 1 ≤ c.toRight) (hc' : 1 ≤ c.toLeft) {w : World} {bs : List Session.Act}
    (h : Talking kc ks process bs w) (ht : Spec.Says said w) (htx : w.client.io.txAlive = true)
    (hne : w.client.io.accepted ≠ said) (hq : Flow.Stuck c kc ks process said w) :
    Spec.Circle w ∧ w.client.io.arrived.length + c.toLeft < w.server.io.out.length + 1 := by
  obtain ⟨p1, p2, wayS, wayC⟩ := pair_inv (link_pair h.link)
  simp only [linkOf, side] at p1 p2 wayS wayC
  have noC : ∀ {act io}, Link.Ev.app (.act act) = false →
      Move kc ks w.client (side w.server) (.act act) { w.client with io } → Turn said w (.client (.act act)) →
      (io.out = w.client.io.out ∨ io.out.length ≤ w.server.io.arrived.length + c.toRight) →
      (io.arrived = w.client.io.arrived ∨ Asks w.client.io) → False := by
    intro act io h1 h2 h0 h3 h4
    rcases hq (.client (.act act)) _ ⟨.client h2, ⟨h3, .inl rfl, h4, .inl rfl⟩⟩ h0 with h5 | h5 | h5 | h5 <;> cases h5 <;>
      cases h1
  have noS : ∀ {a q}, Session.Step ks process w.server a q → a ≠ .timeout →
      (a = .peer ∨ a = .writeFails →
        ∃ act, kindOf act = some a ∧ Link.Move ks kc (side w.server) w.client (.act act) (side q)) →
      (q.io.out = w.server.io.out ∨ q.io.out.length ≤ w.client.io.arrived.length + c.toLeft) →
      (q.io.arrived = w.server.io.arrived ∨ Asks w.server.io) → False := by
    intro a q h1 h2 h3 h4 h5
    rcases hq (.server a) _ ⟨.server h1 h3, ⟨.inl rfl, h4, .inl rfl, h5⟩⟩ trivial with h6 | h6 | h6 | h6 <;> cases h6
    exact h2 rfl
  have rxS : w.server.io.rxAlive = true := by
    cases e : w.server.io.rxAlive with
    | true => rfl
    | false => obtain ⟨r, h3⟩ := (mainInv h.sess).gone (.inl e); exact absurd h3 (h.goes r)
  have txS : w.server.io.txAlive = true := by
    cases e : w.server.io.txAlive with
    | true => rfl
    | false => obtain ⟨r, h3⟩ := (mainInv h.sess).gone (.inr e); exact absurd h3 (h.goes r)
  -- the writer of the client
  have clientWrites : ∃ b r, w.client.io.writer = .writing (b :: r) := by
    cases e : w.client.io.writer with
    | failed => exact absurd e h.writeC.1
    | panicked => exact absurd e h.writeC.2
    | done =>
      have := writeInv p1
      simp only [WriteInv, e] at this
      rw [this.2] at htx; cases htx
    | writing r =>
      cases r with
      | cons b r => exact ⟨b, r, rfl⟩
      | nil => exact (noC rfl (.own ht.gone (.written _ e) (by simp) (by simp) (by simp)) trivial (.inl rfl) (.inl rfl)).elim
    | idle =>
      exfalso
      obtain ⟨t, hsaid⟩ := ht.said
      cases t with
      | nil => rw [List.append_nil] at hsaid; exact hne hsaid
      | cons m t =>
        rcases hq (.client (.act (.accept m))) _ ⟨.client (.own ht.gone (.accept _ m e htx) (by simp) (by simp) (by simp)),
          ⟨.inl rfl, .inl rfl, .inl rfl, .inl rfl⟩⟩ ⟨t, by rw [← hsaid]; simp⟩ with h5 | h5 | h5 | h5 <;> cases h5
  obtain ⟨b, r, hw⟩ := clientWrites
  have full : w.server.io.arrived.length + c.toRight < w.client.io.out.length + 1 := by
    refine Nat.lt_of_not_le fun hle => ?_
    refine noC rfl (.own ht.gone (.write _ [b] r hw (by simp)) (by simp) (by simp) (by simp)) trivial (.inr ?_) (.inl rfl)
    simpa only [List.length_append, List.length_singleton] using hle
  -- the reader of the server
  have serverHands : ∃ m, w.server.io.reader = .sending m := by
    cases e : w.server.io.reader with
    | sending m => exact ⟨m, rfl⟩
    | reading =>
      exfalso
      by_cases hs : ∃ r, Settled w.server.io r
      · obtain ⟨r, hs⟩ := hs
        exact noS (.io h.alive (.read _ r e hs) rfl) (by simp) (by simp)
          (by cases r <;> exact .inl rfl) (by cases r <;> exact .inl rfl)
      · have hs : ∀ r, ¬ Settled w.server.io r := fun r hr => hs ⟨r, hr⟩
        obtain ⟨t, ht⟩ := wayS
        have hst := Transport.Step.arrive (k := ks) w.server.io t h.inS
        refine noS (.io h.alive hst rfl) (by simp) (fun _ => ⟨_, rfl,
          .arrive (by simp [side, h.alive]) ?_ (by simp only [side]; rw [ht]; exact List.prefix_refl _) hst⟩)
          (.inl rfl) (.inr ⟨e, hs⟩)
        rintro rfl
        rw [List.append_nil] at ht
        rw [ht] at full
        omega
    | _ => have := h.readS; simp [e, Reader.ended] at this
  obtain ⟨m, hh⟩ := serverHands
  -- the main thread of the server
  have hrec : w.server.app.receives = false := by
    cases e : w.server.app.receives with
    | false => rfl
    | true => exact (noS (.recv h.alive e (.deliver _ m hh rxS)) (by simp) (by simp) (.inl rfl) (.inl rfl)).elim
  have serverSends : ∃ m, toSend w.server.app = some m := by
    rcases app_cases w.server.app with ha | ha | ⟨r, ha⟩
    · rw [hrec] at ha; cases ha
    · exact ha
    · exact absurd ha (h.goes r)
  obtain ⟨n, hn⟩ := serverSends
  -- the writer of the server
  have serverWrites : ∃ b r, w.server.io.writer = .writing (b :: r) := by
    cases ew : w.server.io.writer with
    | idle => exact (noS (.send h.alive hn (.accept _ n ew txS)) (by simp) (by simp) (.inl rfl) (.inl rfl)).elim
    | writing r =>
      cases r with
      | nil => exact (noS (.io h.alive (.written _ ew) rfl) (by simp) (by simp) (.inl rfl) (.inl rfl)).elim
      | cons b r => exact ⟨b, r, rfl⟩
    | _ => exact (noS (.unsent h.alive hn (by rw [ew]; rfl)) (by simp) (by simp) (.inl rfl) (.inl rfl)).elim
  obtain ⟨b', r', hw'⟩ := serverWrites
  have full' : w.client.io.arrived.length + c.toLeft < w.server.io.out.length + 1 := by
    refine Nat.lt_of_not_le fun hle => ?_
    refine noS (.io h.alive (.write _ [b'] r' hw' (by simp)) rfl) (by simp) (by simp) (.inr ?_) (.inl rfl)
    simpa only [List.length_append, List.length_singleton] using hle
  refine ⟨⟨⟨b, r, hw⟩, ⟨m, hh⟩, ⟨hrec, n, hn⟩, ⟨b', r', hw'⟩, ?_⟩, full'⟩
  -- the reader of the client
  cases e : w.client.io.reader with
  | sending m => exact ⟨m, rfl⟩
  | reading =>
    exfalso
    by_cases hs : ∃ r, Settled w.client.io r
    · obtain ⟨r, hs⟩ := hs
      exact noC rfl (.own ht.gone (.read _ r e hs) (by simp) (by simp) (by simp)) trivial
        (by cases r <;> exact .inl rfl) (by cases r <;> exact .inl rfl)
    · have hs : ∀ r, ¬ Settled w.client.io r := fun r hr => hs ⟨r, hr⟩
      obtain ⟨t, htt⟩ := wayC
      refine noC rfl (.arrive ht.gone ?_ (by simp only [side]; rw [htt]; exact List.prefix_refl _)
        (.arrive _ t h.inC)) trivial (.inl rfl) (.inr ⟨e, hs⟩)
      rintro rfl
      rw [List.append_nil] at htt
      rw [htt] at full'
      omega
  | _ => have := h.readC; simp [e, Reader.ended] at this

/-- C122: when nothing can happen any more, as long as the client has neither dropped its connection nor exited, and if
there are so many answers: everybody waits for the next one. -/
theorem C122_stuck (hc : 1 ≤ c.toRight) (hc' : 1 ≤ c.toLeft) (hp : Spec.Plan process said early id ip v pre) {w : World}
    {as : List EndToEnd.Ev} (h : Flow.Turns c kc ks process said {} as w) (hg : w.client.gone = false)
    (hr : w.client.io.rxAlive = true) (ht : w.client.io.txAlive = true) (hq : Flow.Stuck c kc ks process said w)
    (hmany : 2 * c.toRight / 21 + 2 * c.toLeft / 21 + 6 ≤ (Spec.answers process (Spec.session early id ip pre)).length) :
    Spec.Circle w ∧ w.client.io.delivered = [] ∧ w.client.io.accepted ≠ said ∧ w.server.exit = none := by
  obtain ⟨h1, h2, h3, _⟩ := C122_never h hp.sayable (by rw [hp.heard]; exact hp.carried) (by rw [hp.heard]; exact hmany)
  obtain ⟨bs, hgo⟩ := talking hp (flow_steps (turns_steps h)) ⟨hg, hr, h2⟩
  exact ⟨(stuck_circle hc hc' hgo ⟨hg, hr, h2⟩ ht h3 hq).1, h1, h3, hgo.alive⟩

theorem turns_said {script : List Message} {w : World} {as : List EndToEnd.Ev}
    (h : Flow.Turns c kc ks process script {} as w) : w.client.io.accepted <+: script := by
  have key : ∀ {w0 w : World} {as}, Flow.Turns c kc ks process script w0 as w → w0 = ({} : World) →
      w.client.io.accepted <+: script := by
    intro w0 w as h
    induction h with
    | nil => intro e; subst e; exact List.nil_prefix
    | snoc _ hs ht ih =>
      intro e
      have h1 := ih e
      obtain ⟨hs, _⟩ := hs
      cases hs with
      | server => exact h1
      | client hm =>
        cases hm with
        | own hg hst _ _ _ =>
          cases hst with
          | accept m => exact ht
          | read r => cases r <;> exact h1
          | _ => exact h1
        | arrive _ _ _ hst => cases hst; exact h1
        | fin _ _ _ hst => cases hst; exact h1
        | reset _ _ _ _ hst => cases hst; exact h1
        | fails _ _ _ _ hst => cases hst; exact h1
        | exit => exact h1
  exact key h rfl

/-- C122: if instead all the answers fit into the buffer, the client with one thread is served as one that receives all
the time. -/
theorem C122_fits (hc : 1 ≤ c.toRight) (hc' : 1 ≤ c.toLeft) (hp : Spec.Plan process said early id ip v pre) {w : World}
    {as : List EndToEnd.Ev} (h : Flow.Turns c kc ks process said {} as w) (hg : w.client.gone = false)
    (hr : w.client.io.rxAlive = true) (ht : w.client.io.txAlive = true) (hq : Flow.Stuck c kc ks process said w)
    (hfew : ((Spec.answers process (Spec.session early id ip pre)).flatMap Frame.write).length ≤ c.toLeft) :
    w.client.io.accepted = said ∧
    ∃ ms, Spec.Served early id v (Spec.requests pre) ms ∧ w.client.io.delivered = ms.map Message.norm := by
  have hsay : Spec.Says said w := ⟨hg, hr, turns_said h⟩
  have hst := turns_steps h
  obtain ⟨bs, hgo⟩ := talking hp (flow_steps hst) hsay
  obtain ⟨_, _, hacc⟩ := talking_sent hp hgo hsay
  have hall : w.client.io.accepted = said := by
    by_cases hne : w.client.io.accepted = said
    · exact hne
    exfalso
    obtain ⟨hci, hfull⟩ := stuck_circle hc hc' hgo hsay ht hne hq
    obtain ⟨b, r, hw⟩ := hci.serverWrites
    have p2 := (pair_inv (link_pair hgo.link)).2.1
    have hwi := writeInv p2
    simp only [linkOf, side, WriteInv, hw] at hwi
    obtain ⟨ms, m, sent, e1, e2, e3⟩ := hwi
    have hlen := (flatMap_prefix (f := Frame.write) hacc).length_le
    have e4 := congrArg List.length e2
    rw [e1] at hlen
    rw [e3] at hfull
    simp only [List.flatMap_append, List.flatMap_cons, List.flatMap_nil, List.append_nil, List.length_append,
      List.length_cons] at hlen hfull e4
    omega
  refine ⟨hall, C122_rest hc hc' hp hst hg hr hall ?_⟩
  intro a u hs
  have turn : a.free = false → Turn said w a := by
    intro hf
    cases a with
    | server => trivial
    | client e =>
      cases e with
      | exit => trivial
      | act x => cases x <;> first | exact hall | trivial | cases hf
  cases hf : a.free with
  | true => rfl
  | false =>
    rcases hq a u hs (turn hf) with rfl | rfl | rfl | rfl <;> cases hf

/-- C122: a client with one thread either gets to an end of that kind or leaves. -/
theorem C122_terminates (c : Caps) (kc ks : Kind) (process : InitializeBuild → Option Value) (script : List Message) :
    WellFounded fun w' w : World => ∃ a, Flow.Step c kc ks process w a w' ∧ Turn script w a ∧
      a ≠ .client (.act .dropRx) ∧ a ≠ .client (.act .dropTx) ∧ a ≠ .client .exit := by
  refine Subrelation.wf (r := InvImage (Prod.Lex (· < ·) (Prod.Lex (· < ·)
      (Prod.Lex (Prod.Lex (· < ·) (· < ·)) (· < ·)))) (fun w : World => (script.length - w.client.io.accepted.length, worldWork w)))
    ?_ (InvImage.wf _ (Prod.lex ⟨_, Nat.lt_wfRel.wf⟩ ⟨_, (Prod.lex ⟨_, Nat.lt_wfRel.wf⟩ ⟨_, (Prod.lex ⟨_,
      (Prod.lex ⟨_, Nat.lt_wfRel.wf⟩ ⟨_, Nat.lt_wfRel.wf⟩).wf⟩ ⟨_, Nat.lt_wfRel.wf⟩).wf⟩).wf⟩).wf)
  rintro w' w ⟨a, ⟨hs, _⟩, ht, h1, h2, h3⟩
  by_cases ha : ∃ m, a = .client (.act (.accept m))
  · obtain ⟨m, rfl⟩ := ha
    have hle := List.IsPrefix.length_le ht
    refine .left _ _ ?_
    cases hs with
    | client hm =>
      cases hm with
      | own _ hst =>
        cases hst with
        | accept m =>
          simp only [List.length_append, List.length_singleton] at hle ⊢
          omega
  · have happ : ∀ e, a = EndToEnd.Ev.client e → e.app = false := by
      rintro e rfl
      cases e with
      | exit => exact absurd rfl h3
      | act x =>
        cases x with
        | accept m => exact absurd ⟨m, rfl⟩ ha
        | dropRx => exact absurd rfl h1
        | dropTx => exact absurd rfl h2
        | _ => rfl
    have hw := world_work hs happ
    have hacc : w'.client.io.accepted = w.client.io.accepted := by
      cases hs with
      | server => rfl
      | client hm => exact (move_keeps hm (happ _ rfl)).2.1
    exact Prod.lex_def.2 (.inr ⟨by simp only [hacc], hw⟩)

theorem turns_append {script : List Message} {u w x : World} {as bs : List EndToEnd.Ev}
    (h1 : Flow.Turns c kc ks process script u as w) (h2 : Flow.Turns c kc ks process script w bs x) :
    Flow.Turns c kc ks process script u (as ++ bs) x := by
  induction h2 with
  | nil => simpa using h1
  | snoc _ h4 h5 ih => rw [← List.append_assoc]; exact .snoc ih h4 h5

/-- It goes on until nothing can happen any more, the client neither dropping anything nor exiting. -/
theorem turns_settle (c : Caps) (kc ks : Kind) (process : InitializeBuild → Option Value) (script : List Message)
    (w : World) : ∃ as u, Flow.Turns c kc ks process script w as u ∧ Flow.Stuck c kc ks process script u ∧
      u.client.gone = w.client.gone ∧ u.client.io.rxAlive = w.client.io.rxAlive ∧
      u.client.io.txAlive = w.client.io.txAlive := by
  refine (C122_terminates c kc ks process script).induction (C := fun w => ∃ as u,
    Flow.Turns c kc ks process script w as u ∧ Flow.Stuck c kc ks process script u ∧
      u.client.gone = w.client.gone ∧ u.client.io.rxAlive = w.client.io.rxAlive ∧
      u.client.io.txAlive = w.client.io.txAlive) w ?_
  intro w ih
  by_cases hq : Flow.Stuck c kc ks process script w
  · exact ⟨[], w, .nil w, hq, rfl, rfl, rfl⟩
  simp only [Flow.Stuck, Classical.not_forall, not_or] at hq
  obtain ⟨a, u, h1, h2, _, n1, n2, n3⟩ := hq
  obtain ⟨as, r, h3, h4, k1, k2, k3⟩ := ih u ⟨a, h1, h2, n1, n2, n3⟩
  have keep : u.client.gone = w.client.gone ∧ u.client.io.rxAlive = w.client.io.rxAlive ∧
      u.client.io.txAlive = w.client.io.txAlive := by
    have hs := h1.step
    cases hs with
    | server => exact ⟨rfl, rfl, rfl⟩
    | @client ev x hm =>
      cases ha : ev.app with
      | false => obtain ⟨i1, _, i2, i3⟩ := move_keeps hm ha; exact ⟨i1, i2, i3⟩
      | true =>
        cases hm with
        | own _ hst =>
          cases hst with
          | accept m => exact ⟨rfl, rfl, rfl⟩
          | dropRx => exact absurd rfl n1
          | dropTx => exact absurd rfl n2
          | _ => cases ha
        | exit => exact absurd rfl n3
        | _ => cases ha
  exact ⟨[a] ++ as, r, turns_append (.snoc (.nil _) h1 h2) h3, h4, k1.trans keep.1, k2.trans keep.2.1, k3.trans keep.2.2⟩

/-- C122: so with buffers of any size, and a session with so many answers, a client with one thread gets to where everybody
waits; with the same buffers and the same session a client that receives all the time is served to the end (`C122_ends`). -/
theorem C122_circle (hc : 1 ≤ c.toRight) (hc' : 1 ≤ c.toLeft) (hp : Spec.Plan process said early id ip v pre) (kc ks : Kind)
    (hmany : 2 * c.toRight / 21 + 2 * c.toLeft / 21 + 6 ≤ (Spec.answers process (Spec.session early id ip pre)).length) :
    ∃ as w, Flow.Turns c kc ks process said {} as w ∧ Flow.Stuck c kc ks process said w ∧ Spec.Circle w := by
  obtain ⟨as, w, h1, h2, k1, k2, k3⟩ := turns_settle c kc ks process said {}
  exact ⟨as, w, h1, h2, (C122_stuck hc hc' hp h1 k1 k2 k3 h2 hmany).1⟩

end

section
attribute [local instance] Ext.sample FloatText.sample Dbg.sample

/-- The session of C96, with `n` more requests before build/initialize. -/
def manySaid (n : Nat) : List Message :=
  List.replicate n (.request (.buildTargetSources (.i32 0) ⟨[]⟩)) ++ sampleSaid

theorem many_session (n : Nat) : Spec.session (List.replicate n (.buildTargetSources (.i32 0) ⟨[]⟩) ++
      [.buildTargetSources (.i32 0) ⟨[]⟩]) (.i32 1) sampleInit
      [.request (.buildTargetSources (.i32 2) ⟨[]⟩), .response ⟨.i32 3, none, none⟩] =
    List.replicate n (.request (.buildTargetSources (.i32 0) ⟨[]⟩)) ++
      Spec.session [.buildTargetSources (.i32 0) ⟨[]⟩] (.i32 1) sampleInit
        [.request (.buildTargetSources (.i32 2) ⟨[]⟩), .response ⟨.i32 3, none, none⟩] := by
  simp [Spec.session]

theorem feed_many (n : Nat) : feed sampleHandler .start (List.replicate n (.request (.buildTargetSources (.i32 0) ⟨[]⟩))) =
    (.start, List.replicate n (refusal (.buildTargetSources (.i32 0) ⟨[]⟩))) := by
  induction n with
  | zero => rfl
  | succ n ih =>
    rw [List.replicate_succ, feed, show round sampleHandler .start (.request (.buildTargetSources (.i32 0) ⟨[]⟩)) =
      (.start, [refusal (.buildTargetSources (.i32 0) ⟨[]⟩)]) from rfl]
    simp only [ih, List.replicate_succ, List.singleton_append]

theorem many_answers (n : Nat) : Spec.answers sampleHandler (Spec.session (List.replicate n (.buildTargetSources (.i32 0) ⟨[]⟩) ++
      [.buildTargetSources (.i32 0) ⟨[]⟩]) (.i32 1) sampleInit
      [.request (.buildTargetSources (.i32 2) ⟨[]⟩), .response ⟨.i32 3, none, none⟩]) =
    List.replicate n (refusal (.buildTargetSources (.i32 0) ⟨[]⟩)) ++
      Spec.answers sampleHandler (Spec.session [.buildTargetSources (.i32 0) ⟨[]⟩] (.i32 1) sampleInit
        [.request (.buildTargetSources (.i32 2) ⟨[]⟩), .response ⟨.i32 3, none, none⟩]) := by
  rw [many_session, answers_eq, answers_eq, feed_append, feed_many]

theorem manyPlan (n : Nat) : Spec.Plan sampleHandler (manySaid n)
    (List.replicate n (.buildTargetSources (.i32 0) ⟨[]⟩) ++ [.buildTargetSources (.i32 0) ⟨[]⟩]) (.i32 1) sampleInit
    (.ofJson (.str "c")) [.request (.buildTargetSources (.i32 2) ⟨[]⟩), .response ⟨.i32 3, none, none⟩] := by
  have hp := samplePlan
  refine ⟨?_, ?_, ?_, ?_, hp.accepts, ?_⟩
  · intro m hm
    rcases List.mem_append.1 hm with hm | hm
    · rw [(List.mem_replicate.1 hm).2]
      exact hp.sayable _ (by simp [sampleSaid])
    · exact hp.sayable m hm
  · intro hm
    rcases List.mem_append.1 hm with hm | hm
    · cases (List.mem_replicate.1 hm).2
    · exact hp.noExit hm
  · rw [many_session, manySaid, List.map_append, hp.heard]
    simp [Spec.heard, Message.norm, Request.norm]
  · intro r hm
    rcases List.mem_append.1 hm with hm | hm
    · rw [(List.mem_replicate.1 hm).2]; simp [Spec.Early]
    · exact hp.refused r hm
  · intro m hm
    rw [many_answers] at hm
    rcases List.mem_append.1 hm with hm | hm
    · rw [(List.mem_replicate.1 hm).2]
      refine hp.carried _ ?_
      rw [answers_eq]
      simp [Spec.session, feed, round, onRecv, toSend, onSent, refusal]
    · exact hp.carried m hm

/-- Beside C122: for buffers of any size there is a session that a client with one thread never gets through, and a
client that receives all the time does. -/
example (c : Caps) (hc : 1 ≤ c.toRight) (hc' : 1 ≤ c.toLeft) (kc ks : Kind) : ∃ script : List Message,
    (∃ as w, Flow.Turns c kc ks sampleHandler script {} as w ∧ Flow.Stuck c kc ks sampleHandler script w ∧
      Spec.Circle w ∧ w.client.io.delivered = [] ∧ w.server.exit = none) ∧
    (∃ as w, Flow.Steps c kc ks sampleHandler {} as w ∧ w.client.io.accepted = script ++ [.notification .exit] ∧
      w.server.exit = some true ∧ join kc w.client.io = .ok) := by
  have hp := manyPlan (2 * c.toRight / 21 + 2 * c.toLeft / 21 + 6)
  refine ⟨manySaid (2 * c.toRight / 21 + 2 * c.toLeft / 21 + 6), ?_, ?_⟩
  · obtain ⟨as, w, h1, h2, k1, k2, k3⟩ := turns_settle c kc ks sampleHandler (manySaid (2 * c.toRight / 21 + 2 * c.toLeft / 21 + 6)) {}
    obtain ⟨h3, h4, _, h5⟩ := C122_stuck hc hc' hp h1 k1 k2 k3 h2 (by rw [many_answers]; simp only [List.length_append, List.length_replicate]; omega)
    exact ⟨as, w, h1, h2, h3, h4, h5⟩
  · obtain ⟨as, w, h1, h2, h3, h4, _⟩ := C122_ends hc hc' hp kc ks
    exact ⟨as, w, h1, h2, h3, h4⟩

/-- Beside C122_circle: with room for a thousand bytes each way, and two hundred requests. -/
example (kc ks : Kind) : ∃ as w, Flow.Turns ⟨1000, 1000⟩ kc ks sampleHandler (manySaid 200) {} as w ∧ Spec.Circle w := by
  obtain ⟨as, w, h, _, h1⟩ := C122_circle (c := ⟨1000, 1000⟩) (by simp) (by simp) (manyPlan 200) kc ks
    (by rw [many_answers]; simp only [List.length_append, List.length_replicate]; omega)
  exact ⟨as, w, h, h1⟩

/-- Beside C122_fits: with room for a few hundred bytes the session of C97 fits. -/
example (kc ks : Kind) : ∃ as w, Flow.Turns ⟨1, 1000⟩ kc ks sampleHandler sampleSaid {} as w ∧
    w.client.io.accepted = sampleSaid ∧ w.client.io.delivered.length = 3 := by
  obtain ⟨as, w, h1, h2, k1, k2, k3⟩ := turns_settle ⟨1, 1000⟩ kc ks sampleHandler sampleSaid {}
  obtain ⟨h3, ms, ⟨refs, rs, h6, h7, h8⟩, h9⟩ := C122_fits (by simp) (by simp) samplePlan h1 k1 k2 k3 h2 (by
    rw [answers_eq]
    decide +kernel)
  refine ⟨as, w, h1, h3, ?_⟩
  have := h7.length
  cases h8 with
  | cons _ h8 => cases h8; simp [h9, h6, this]

/-- Beside C122_takes, C122_rest and C122_ahead: with room for one byte each way, all that the session of C97 has has been
sent, taken and answered, and the next message would be taken. -/
example (kc ks : Kind) : ∃ as w, Flow.Steps ⟨1, 1⟩ kc ks sampleHandler {} as w ∧ w.client.io.accepted = sampleSaid ∧
    w.client.io.delivered.length = 3 ∧ w.server.io.accepted.length ≤ 3 + 2 ∧
    ∃ u, Flow.Step ⟨1, 1⟩ kc ks sampleHandler w (.client (.act (.accept (.notification .exit)))) u := by
  obtain ⟨as, w, h, h1, h2, h3, h4, h5⟩ := flow_says (c := ⟨1, 1⟩) (by simp) (by simp) samplePlan kc ks sampleSaid.length (by omega)
  rw [List.take_length] at h4
  have hpre : w.client.io.accepted <+: sampleSaid := by rw [h4]; exact List.prefix_refl _
  obtain ⟨ms, ⟨refs, rs, h6, h7, h8⟩, h9⟩ := C122_rest (c := ⟨1, 1⟩) (by simp) (by simp) samplePlan h h1 h2 h4 h5
  obtain ⟨u, h10, _⟩ := C122_takes (c := ⟨1, 1⟩) (by simp) (by simp) samplePlan h h1 h2 h3 hpre h5 (.notification .exit)
  have hlen : w.client.io.delivered.length = 3 := by
    have := h7.length
    cases h8 with
    | cons _ h8 => cases h8; simp [h9, h6, this]
  obtain ⟨bs, hgo⟩ := talking samplePlan (flow_steps h) ⟨h1, h2, hpre⟩
  obtain ⟨okA, _, hacc⟩ := talking_sent samplePlan hgo ⟨h1, h2, hpre⟩
  have := (C122_ahead (flow_inv h).1 okA (fun m hm => (plan_answers samplePlan m (hacc.subset hm)).1)).2.2
  simp only [Flow.sides, side, hlen] at this
  exact ⟨as, w, h, h4, hlen, this, u, h10⟩

/-- Beside C122_never: already the first messages of that session are too many, wherever it stands. -/
example (kc ks : Kind) {as : List EndToEnd.Ev} {w : World}
    (h : Flow.Turns ⟨1, 1⟩ kc ks sampleHandler (manySaid 6) {} as w) : w.client.io.delivered = [] := by
  have hp := manyPlan 6
  refine (C122_never h hp.sayable (by rw [hp.heard]; exact hp.carried) ?_).1
  rw [hp.heard, many_answers]
  simp only [List.length_append, List.length_replicate]
  omega

/-- Beside C122_terminates: no such client goes on for ever. -/
example (c : Caps) (kc ks : Kind) (script : List Message) : ¬ ∃ f : Nat → World, ∀ n, ∃ a,
    Flow.Step c kc ks sampleHandler (f n) a (f (n + 1)) ∧ Turn script (f n) a ∧
      a ≠ .client (.act .dropRx) ∧ a ≠ .client (.act .dropTx) ∧ a ≠ .client .exit := by
  rintro ⟨f, hf⟩
  have : ∀ p n, f n = p → False := by
    intro p
    induction p using (C122_terminates c kc ks sampleHandler script).induction with
    | _ p ih => exact fun n hn => ih (f (n + 1)) (hn ▸ hf n) (n + 1) rfl
  exact this _ 0 rfl

end
end Bsp
