/-
C129: a server with a fixed number of workers, behind finite buffers.
-/
import Verif.Desk
import Verif.Props.Pool
import Verif.Props.Hall
import Verif.Props.Asking

namespace Bsp
open Frame Json Transport
open Link (Move LinkStep Side)
open Conn (Dbg)
open Session (App toSend onSent)
open Flow (Caps Asks Lets Policy)

section
variable [LawfulExt] [Dbg] [FloatText]
variable {c : Caps} {kc ks : Kind} {said script : List Message} {sends : Policy} {n : Nat}

/-! ### Specification -/

/-- The two are connected and have received all that the other has sent, as after the handshake (C126), and `n` workers
are about to receive. Specification about README.md:14-37, bsp-server/src/transporter.rs:14-80 on both ends. -/
structure Spec.Staffed (kc ks : Kind) (n : Nat) (w : Desk.World) : Prop where
  met : Spec.Met kc ks { client := w.client, server := { io := w.server.io } }
  workers : w.server = Pool.start w.server.io n

/-- What can be sent, is not exit, and can be answered. Specification about bsp-server/src/message.rs:42-49,
README.md:46-54. -/
structure Spec.Askable (said : List Message) : Prop where
  sayable : ∀ m ∈ said, Spec.Sayable m ∧ m ≠ .notification .exit
  answers : ∀ r ∈ Spec.requests (said.map Spec.heard), Spec.Carried (Conn.reply r)

/-- Before it has sent all, the client sends only if the answers that it has not received yet fit into the buffer or are at
most one more than there are workers, and receives only if there are such answers, in whatever order they come. `a0`, `d0`:
what it had sent and received before. Specification about bsp-server/src/lib.rs:37-40. -/
def Spec.Wary (n cap : Nat) (a0 d0 said : List Message) (sends : Policy) : Prop :=
  ∀ a, a <+: said → a ≠ said → ∀ got due : List Message,
    (got ++ due).Perm ((Spec.requests (a.map Spec.heard)).map Conn.reply) →
    (sends (a0 ++ a) (d0 ++ got.map Spec.heard) = true →
      (due.flatMap Frame.write).length ≤ cap ∨ due.length ≤ n + 1) ∧
    (sends (a0 ++ a) (d0 ++ got.map Spec.heard) = false → due ≠ [])

/-! ### Runs -/

theorem desk_move {p q : Pool.State} {x : Side} {a : Pool.Act} (h : Pool.Step ks p a q)
    (hp : a = .peer ∨ a = .writeFails →
      ∃ act, Pool.kindOf act = some a ∧ Move ks kc (Desk.side p) x (.act act) (Desk.side q)) :
    Desk.side q = Desk.side p ∨ ∃ ev, Move ks kc (Desk.side p) x ev (Desk.side q) := by
  cases h with
  | @io p b a io' h2 h3 =>
    refine .inr ?_
    cases h2 with
    | arrive bs _ => cases h3; obtain ⟨act, _, hm⟩ := hp (.inl rfl); exact ⟨_, hm⟩
    | hangUp b _ => cases h3; obtain ⟨act, _, hm⟩ := hp (.inl rfl); exact ⟨_, hm⟩
    | writeFails b _ => cases h3; obtain ⟨act, _, hm⟩ := hp (.inr rfl); exact ⟨_, hm⟩
    | deliver => cases h3
    | accept => cases h3
    | dropRx => cases h3
    | dropTx => cases h3
    | read r i1 i2 => exact ⟨_, .own rfl (.read _ r i1 i2) (by simp) (by simp) (by simp)⟩
    | undeliverable m i1 i2 => exact ⟨_, .own rfl (.undeliverable _ m i1 i2) (by simp) (by simp) (by simp)⟩
    | write a b i1 i2 => exact ⟨_, .own rfl (.write _ a b i1 i2) (by simp) (by simp) (by simp)⟩
    | written i1 => exact ⟨_, .own rfl (.written _ i1) (by simp) (by simp) (by simp)⟩
    | close i1 i2 => exact ⟨_, .own rfl (.close _ i1 i2) (by simp) (by simp) (by simp)⟩
  | recv _ h2 => exact .inr ⟨_, .own rfl h2 (by simp) (by simp) (by simp)⟩
  | closed => exact .inl rfl
  | send _ h2 => exact .inr ⟨_, .own rfl h2 (by simp) (by simp) (by simp)⟩
  | unsent => exact .inl rfl
  | timeout => exact .inl rfl
  | dropRx => exact .inr ⟨_, .own rfl (.dropRx _) (by simp) (by simp) (by simp)⟩
  | dropTx => exact .inr ⟨_, .own rfl (.dropTx _) (by simp) (by simp) (by simp)⟩

/-- How what the client has sent grows. -/
theorem desk_sent {w w' : Desk.World} {a : Desk.Ev} (h : Desk.Step c kc ks w a w') :
    w'.client.io.accepted = w.client.io.accepted ∨
    ∃ m, a = .client (.act (.accept m)) ∧ w'.client.io.accepted = w.client.io.accepted ++ [m] := by
  have h1 := h.goes
  cases h1 with
  | server => exact .inl rfl
  | @client ev x hm =>
    cases hm with
    | own hg hst _ _ _ =>
      cases hst with
      | accept m => exact .inr ⟨m, rfl, rfl⟩
      | read r => cases r <;> exact .inl rfl
      | _ => exact .inl rfl
    | arrive _ _ _ hst => cases hst; exact .inl rfl
    | fin _ _ _ hst => cases hst; exact .inl rfl
    | reset _ _ _ _ hst => cases hst; exact .inl rfl
    | fails _ _ _ _ hst => cases hst; exact .inl rfl
    | exit => exact .inl rfl

theorem desk_dialog {w0 w : Desk.World} {as : List Desk.Ev} (h : Desk.Dialog c kc ks script sends w0 as w) :
    Desk.Steps c kc ks w0 as w := by
  induction h with
  | nil => exact .nil _
  | snoc _ hs _ ih => exact .snoc ih hs

theorem desk_said {w0 w : Desk.World} {as : List Desk.Ev}
    (h : Desk.Dialog c kc ks script sends w0 as w) (h0 : w0.client.io.accepted <+: script) :
    w0.client.io.accepted <+: w.client.io.accepted ∧ w.client.io.accepted <+: script := by
  induction h with
  | nil => exact ⟨List.prefix_refl _, h0⟩
  | snoc _ hs ht ih =>
    obtain ⟨i1, i2⟩ := ih
    rcases desk_sent hs with h1 | ⟨m, rfl, h1⟩
    · rw [h1]; exact ⟨i1, i2⟩
    · rw [h1]; exact ⟨i1.trans (List.prefix_append _ _), ht.1⟩

theorem desk_grows {w0 w : Desk.World} {as : List Desk.Ev} (h : Desk.Steps c kc ks w0 as w) :
    w0.client.io.accepted <+: w.client.io.accepted := by
  induction h with
  | nil => exact List.prefix_refl _
  | snoc _ hs ih =>
    rcases desk_sent hs with h1 | ⟨m, rfl, h1⟩
    · rw [h1]; exact ih
    · rw [h1]; exact ih.trans (List.prefix_append _ _)

/-! ### What holds at any time -/

/-- The invariant. -/
structure AtDesk (kc ks : Kind) (n : Nat) (w0 : Desk.World) (bs : List Pool.Act) (w : Desk.World) : Prop where
  link : Link.Reachable kc ks (Desk.sides w)
  pool : Pool.Steps ks (Pool.start w0.server.io n) bs w.server
  wrote : Pool.Act.writeFails ∉ bs
  inC : w.client.io.inEnd = none
  inS : w.server.io.inEnd = none
  readC : w.client.io.reader.ended = false
  readS : w.server.io.reader.ended = false
  writeC : w.client.io.writer ≠ .failed ∧ w.client.io.writer ≠ .panicked

/-- The accounts of the workers. -/
structure Books (w0 w : Desk.World) (n : Nat) (ds sent : List Message) : Prop where
  delivered : w.server.io.delivered = w0.server.io.delivered ++ ds
  accepted : w.server.io.accepted = w0.server.io.accepted ++ sent
  answered : (sent ++ owed w.server.workers).Perm ((Spec.requests ds).map Conn.reply)
  len : w.server.workers.length = n
  workers : ∀ x ∈ w.server.workers, x = .idle ∨ ∃ r, x = .answering r
  rx : w.server.io.rxAlive = true
  tx : w.server.io.txAlive = true
  sayable : ∀ m ∈ w.server.io.accepted, Spec.Sayable m ∧ m ≠ .notification .exit

omit [LawfulExt] [Dbg] [FloatText] in
theorem mem_of_requests [Ext] {r : Request} {ds : List Message} (h : r ∈ Spec.requests ds) : Message.request r ∈ ds := by
  induction ds with
  | nil => cases h
  | cons m ds ih =>
    cases m with
    | request q =>
      simp only [Spec.requests, List.mem_cons] at h
      rcases h with rfl | h
      · simp
      · exact List.mem_cons_of_mem _ (ih h)
    | _ => exact List.mem_cons_of_mem _ (ih h)

omit [LawfulExt] [Dbg] [FloatText] in
theorem requests_mono [Ext] {a b : List Message} (h : a <+: b) : ∀ r ∈ Spec.requests a, r ∈ Spec.requests b := by
  obtain ⟨t, rfl⟩ := h
  intro r hr
  rw [reqs_append]
  exact List.mem_append_left _ hr

/-- What the invariant says of the workers. -/
theorem desk_books {w0 w : Desk.World} {bs : List Pool.Act} (hn : 1 ≤ n) (hm : Spec.Staffed kc ks n w0)
    (hs : Spec.Askable said) (link : Link.Reachable kc ks (Desk.sides w))
    (pool : Pool.Steps ks (Pool.start w0.server.io n) bs w.server) (wrote : Pool.Act.writeFails ∉ bs)
    (inS : w.server.io.inEnd = none) (hgr : w0.client.io.accepted <+: w.client.io.accepted)
    (hacc : w.client.io.accepted <+: w0.client.io.accepted ++ said) :
    ∃ ds sent, Books w0 w n ds sent := by
  have hok : ∀ m ∈ w.client.io.accepted, Spec.Sayable m ∧ m ≠ .notification .exit := by
    intro m h
    rcases List.mem_append.1 (hacc.subset h) with h | h
    · exact hm.met.sayable m (.inl h)
    · exact hs.sayable m h
  obtain ⟨p1, p2, p3, p4⟩ := pair_inv (link_pair hm.met.link)
  have I := poolInv (k := ks) p2 hm.met.rx hm.met.tx pool
  obtain ⟨ds, sent, served, lost, failed, T⟩ := I.tally
  have hpre : w.server.io.delivered <+: w.client.io.accepted.map Spec.heard :=
    C56_heard (link_pair link) (fun m hm => (hok m hm).1)
  have hno : Spec.NoShutdown ds := by
    intro id h
    obtain ⟨m, _, h2⟩ := List.mem_map.1 (hpre.subset (by rw [T.delivered]; exact List.mem_append_right _ h))
    exact heard_shutdown m id h2
  have hds : ds <+: said.map Spec.heard := by
    have h1 := hpre.trans (List.IsPrefix.map Spec.heard hacc)
    have h2 : w0.server.io.delivered = w0.client.io.accepted.map Spec.heard := hm.met.toServer
    have h3 : w.server.io.delivered = w0.server.io.delivered ++ ds := T.delivered
    rw [h3, List.map_append, h2, List.prefix_append_right_inj] at h1
    exact h1
  have hnf := pool_no_fail pool wrote (by
    show w0.server.io.writer ≠ _
    rw [show w0.server.io.writer = _ from hm.met.writers.2]; cases ks <;> simp [writeError])
  have hf : failed = [] := Classical.byContradiction fun h => hnf (T.broken h)
  have hl : lost = [] := by
    rw [List.eq_nil_iff_forall_not_mem]
    intro r hr
    obtain ⟨a, id, b, h1, _⟩ := T.late r hr
    exact hno id (by rw [h1]; simp)
  subst hf hl
  have hbad : ¬ Bad bs ds [] := by
    rintro (h | ⟨_, id, h⟩ | ⟨m, ⟨a, id, b, h, _⟩, _⟩)
    · exact h rfl
    · exact hno id h
    · exact hno id (by rw [h]; simp)
  have hwk : ∀ x ∈ w.server.workers, x = .idle ∨ ∃ r, x = .answering r := by
    intro x hx
    have h1 := I.inLoop x hx
    cases x with
    | idle => exact .inl rfl
    | answering r => exact .inr ⟨r, rfl⟩
    | stopping id => obtain ⟨id, h⟩ := T.asked _ hx rfl; exact absurd h (hno id)
    | leaving => obtain ⟨id, h⟩ := T.asked _ hx rfl; exact absurd h (hno id)
    | ended r =>
      rcases T.ends r hx with ⟨_, h, _⟩ | h
      · exact absurd h (not_over (link_pair link) (fun m hm => (hok m hm).1) (fun h => (hok _ h).2 rfl) inS)
      · exact absurd h hbad
    | _ => exact h1.elim
  have hsome : ∃ x, x ∈ w.server.workers := by
    cases e : w.server.workers with
    | nil => have := I.len; rw [e] at this; simp at this; omega
    | cons x l => exact ⟨x, by simp⟩
  have halive : ¬ (w.server.io.rxAlive = false ∨ w.server.io.txAlive = false) := by
    intro h
    obtain ⟨x, hx⟩ := hsome
    obtain ⟨r, rfl⟩ := I.gone h x hx
    rcases hwk _ hx with h | ⟨_, h⟩ <;> cases h
  have hans : (sent ++ owed w.server.workers).Perm ((Spec.requests ds).map Conn.reply) := by
    have h1 := T.answered
    have h2 := T.received
    simp only [List.append_nil] at h1 h2
    have h3 := h1.trans (h2.map answerTo)
    have h4 : (Spec.requests ds).map answerTo = (Spec.requests ds).map Conn.reply := by
      refine List.map_congr_left fun r hr => answerTo_reply ?_
      rintro id rfl
      exact hno id (mem_of_requests hr)
    rwa [h4] at h3
  refine ⟨ds, sent, T.delivered, T.accepted, hans, I.len, hwk, ?_, ?_, ?_⟩
  · cases e : w.server.io.rxAlive with
    | true => rfl
    | false => exact absurd (.inl e) halive
  · cases e : w.server.io.txAlive with
    | true => rfl
    | false => exact absurd (.inr e) halive
  · intro m h
    rw [T.accepted] at h
    rcases List.mem_append.1 h with h | h
    · exact hm.met.sayable m (.inr h)
    · obtain ⟨r, h1, rfl⟩ := List.mem_map.1 (hans.mem_iff.1 (List.mem_append_left _ h))
      have h2 := hs.answers r (requests_mono hds r h1)
      obtain ⟨x, h3, _⟩ := isReply r
      exact ⟨⟨.inl (by rw [h3]; trivial), h2⟩, by rw [h3]; simp⟩

theorem atDesk_step {w0 w w' : Desk.World} {bs : List Pool.Act} {a : Desk.Ev} (hn : 1 ≤ n) (hm : Spec.Staffed kc ks n w0)
    (hs : Spec.Askable said) (h : AtDesk kc ks n w0 bs w) (hst : Desk.Goes kc ks w a w') (hg : w.client.gone = false)
    (hr : w'.client.io.rxAlive = true) (hgr : w0.client.io.accepted <+: w'.client.io.accepted)
    (hacc : w'.client.io.accepted <+: w0.client.io.accepted ++ said) :
    ∃ bs', AtDesk kc ks n w0 bs' w' := by
  have hok : ∀ m ∈ w'.client.io.accepted, Spec.Sayable m ∧ m ≠ .notification .exit := by
    intro m h
    rcases List.mem_append.1 (hacc.subset h) with h | h
    · exact hm.met.sayable m (.inl h)
    · exact hs.sayable m h
  have cS : (Desk.side w.server).closed ks = false := by simp [Desk.side, Side.closed, h.readS]
  have cC : w.client.closed kc = false := by simp [Side.closed, hg, h.readC]
  have fin : ∀ {bs'}, Link.Reachable kc ks (Desk.sides w') → Pool.Steps ks (Pool.start w0.server.io n) bs' w'.server →
      Pool.Act.writeFails ∉ bs' → w'.client.io.inEnd = none → w'.server.io.inEnd = none →
      w'.client.io.writer ≠ .failed ∧ w'.client.io.writer ≠ .panicked → ∃ bs', AtDesk kc ks n w0 bs' w' := by
    intro bs' l1 l2 l3 l4 l5 l6
    obtain ⟨ds, sent, B⟩ := desk_books hn hm hs l1 l2 l3 l5 hgr hacc
    refine ⟨bs', l1, l2, l3, l4, l5, ?_, ?_, l6⟩
    · exact open_reader (pair_swap (link_pair l1)) (fun m hm => (B.sayable m hm).1) (fun hm => (B.sayable _ hm).2 rfl) l4 hr
    · exact open_reader (link_pair l1) (fun m hm => (hok m hm).1) (fun hm => (hok _ hm).2 rfl) l5 B.rx
  cases hst with
  | client hmv =>
    exact fin (.step h.link (.left (l := Desk.sides w) hmv)) h.pool h.wrote (open_inEnd hmv h.inC cS) h.inS
      (open_writer hmv h.writeC cS)
  | @server a p hst hpe =>
    have hmv := desk_move (kc := kc) (x := w.client) hst hpe
    refine fin (bs' := bs ++ [a]) ?_ (.snoc h.pool hst) ?_ h.inC ?_ h.writeC
    · rcases hmv with hmv | ⟨ev, hmv⟩
      · simp only [Desk.sides, hmv]; exact h.link
      · exact .step h.link (.right (l := Desk.sides w) hmv)
    · simp only [List.mem_append, List.mem_singleton, not_or]
      refine ⟨h.wrote, ?_⟩
      rintro rfl
      obtain ⟨act, h1, h2⟩ := hpe (.inr rfl)
      cases h2 with
      | fails _ h3 => rw [cC] at h3; cases h3
      | own _ h3 _ _ h4 => cases act <;> simp [Pool.kindOf] at h1 h4
      | _ => simp [Pool.kindOf] at h1
    · rcases hmv with hmv | ⟨ev, hmv⟩
      · rw [show p.io = w.server.io from congrArg Side.io hmv]; exact h.inS
      · exact open_inEnd hmv h.inS cC

/-- The client has not left before. -/
theorem desk_back {w w' : Desk.World} {a : Desk.Ev} (h : Desk.Step c kc ks w a w') (hg : w'.client.gone = false)
    (hr : w'.client.io.rxAlive = true) : w.client.gone = false ∧ w.client.io.rxAlive = true := by
  have hs := h.goes
  cases hs with
  | server => exact ⟨hg, hr⟩
  | client hmv =>
    refine ⟨?_, (move_grows hmv).rx hr⟩
    cases e : w.client.gone with
    | false => rfl
    | true => have := (move_grows hmv).gone e; simp only at hg; rw [hg] at this; cases this

theorem atDesk {w0 w : Desk.World} {as : List Desk.Ev} (hn : 1 ≤ n) (hm : Spec.Staffed kc ks n w0) (hs : Spec.Askable said)
    (h : Desk.Steps c kc ks w0 as w) (hg : w.client.gone = false) (hr : w.client.io.rxAlive = true)
    (hacc : w.client.io.accepted <+: w0.client.io.accepted ++ said) : ∃ bs, AtDesk kc ks n w0 bs w := by
  have key : ∀ {u w : Desk.World} {as}, Desk.Steps c kc ks u as w → u = w0 → w.client.gone = false →
      w.client.io.rxAlive = true → w.client.io.accepted <+: w0.client.io.accepted ++ said → ∃ bs, AtDesk kc ks n w0 bs w := by
    intro u w as h
    induction h with
    | nil =>
      rintro rfl _ _ _
      refine ⟨[], hm.met.link, ?_, by simp, hm.met.inEnds.1, hm.met.inEnds.2, ?_, ?_, ?_⟩
      · rw [← hm.workers]; exact .nil _
      · rw [show _ = _ from hm.met.readers.1]; rfl
      · rw [show _ = _ from hm.met.readers.2]; rfl
      · rw [show _ = _ from hm.met.writers.1]; simp
    | @snoc as v a u hd hst ih =>
      rintro rfl hg hr hacc
      obtain ⟨h1, h2⟩ := desk_back hst hg hr
      have h3 : v.client.io.accepted <+: u.client.io.accepted := by
        rcases desk_sent hst with h | ⟨m, _, h⟩
        · rw [h]; exact List.prefix_refl _
        · rw [h]; exact List.prefix_append _ _
      obtain ⟨bs, hv⟩ := ih rfl h1 h2 (h3.trans hacc)
      exact atDesk_step hn hm hs hv hst.goes h1 hr (desk_grows (.snoc hd hst)) hacc
  exact key h rfl hg hr hacc


/-! ### Where the client waits -/

omit [FloatText] in
theorem owed_all (l : List App) (h : ∀ x ∈ l, ∃ r, x = .answering r) : (owed l).length = l.length := by
  induction l with
  | nil => rfl
  | cons x l ih =>
    obtain ⟨r, rfl⟩ := h x (by simp)
    have := ih fun y hy => h y (by simp [hy])
    simp [owed, toSend] at this ⊢
    exact this

omit [FloatText] in
theorem owed_none (l : List App) (h : ∀ x ∈ l, x = .idle) : owed l = [] := by
  induction l with
  | nil => rfl
  | cons x l ih =>
    obtain rfl := h x (by simp)
    have := ih fun y hy => h y (by simp [hy])
    simp [owed, toSend] at this ⊢
    exact this

/-- A worker that is waiting for a message gets it. -/
theorem desk_recv {p : Pool.State} {m : Message} (hx : App.idle ∈ p.workers) (hr : p.io.reader = .sending m)
    (ha : p.io.rxAlive = true) : ∃ q, Pool.Step ks p .worker q ∧ q.io.out = p.io.out ∧ q.io.arrived = p.io.arrived := by
  obtain ⟨a, b, hab⟩ := List.append_of_mem hx
  have hp : p = ⟨p.io, a ++ .idle :: b⟩ := by rw [← hab]
  rw [hp]
  exact ⟨_, .recv rfl (.deliver _ m hr ha), rfl, rfl⟩

/-- A worker that has an answer sends it. -/
theorem desk_send {p : Pool.State} {r : Request} (hx : App.answering r ∈ p.workers) (hw : p.io.writer = .idle)
    (ha : p.io.txAlive = true) : ∃ q, Pool.Step ks p .worker q ∧ q.io.out = p.io.out ∧ q.io.arrived = p.io.arrived := by
  obtain ⟨a, b, hab⟩ := List.append_of_mem hx
  have hp : p = ⟨p.io, a ++ .answering r :: b⟩ := by rw [← hab]
  rw [hp]
  exact ⟨_, .send rfl (.accept _ _ hw ha), rfl, rfl⟩

/-- What the writer of the server may be doing. -/
theorem desk_writer {w0 w : Desk.World} {bs : List Pool.Act} {ds sent : List Message} (hm : Spec.Staffed kc ks n w0)
    (h : AtDesk kc ks n w0 bs w) (B : Books w0 w n ds sent) :
    w.server.io.writer = .idle ∨ ∃ r, w.server.io.writer = .writing r := by
  obtain ⟨p1, p2, p3, p4⟩ := pair_inv (link_pair h.link)
  simp only [Desk.sides, Desk.side] at p1 p2 p3 p4
  have hnf := pool_no_fail h.pool h.wrote (by
    show w0.server.io.writer ≠ _
    rw [show w0.server.io.writer = _ from hm.met.writers.2]; cases ks <;> simp [writeError])
  have hwi := writeInv p2
  cases e : w.server.io.writer with
  | idle => exact .inl rfl
  | writing r => exact .inr ⟨r, rfl⟩
  | done => have := (C54_drained p2 e).1; rw [B.tx] at this; cases this
  | failed => simp only [WriteInv, e] at hwi; rw [e, hwi.1] at hnf; exact absurd rfl hnf
  | panicked => simp only [WriteInv, e] at hwi; rw [e, hwi.1] at hnf; exact absurd rfl hnf

/-- When the client receives, all has been received on both sides, and all answers sent. -/
theorem desk_received (hn : 1 ≤ n) (hc : 1 ≤ c.toRight) (hc' : 1 ≤ c.toLeft) {w0 w : Desk.World} {bs : List Pool.Act}
    {ds sent : List Message} (hm : Spec.Staffed kc ks n w0)
    (h : AtDesk kc ks n w0 bs w) (B : Books w0 w n ds sent) (hg : w.client.gone = false) (hr : w.client.io.rxAlive = true)
    (ht : w.client.io.txAlive = true)
    (hok : ∀ m ∈ w.client.io.accepted, Spec.Sayable m ∧ m ≠ .notification .exit)
    (hq : Desk.Waits c kc ks script sends w)
    (hd : w.client.io.accepted = script ∨ sends w.client.io.accepted w.client.io.delivered = false) :
    w.server.io.delivered = w.client.io.accepted.map Spec.heard ∧
    w.client.io.delivered = w.server.io.accepted.map Spec.heard ∧ owed w.server.workers = [] ∧
    w.client.io.writer = .idle := by
  obtain ⟨p1, p2, p3, p4⟩ := pair_inv (link_pair h.link)
  simp only [Desk.sides, Desk.side] at p1 p2 p3 p4
  have noC : ∀ {act io}, Move kc ks w.client (Desk.side w.server) (.act act) { w.client with io } →
      Desk.Chooses script sends w (.client (.act act)) → ¬ Desk.Leaves (.client (.act act)) →
      (io.out = w.client.io.out ∨ io.out.length ≤ w.server.io.arrived.length + c.toRight) →
      (io.arrived = w.client.io.arrived ∨ Asks w.client.io) → False := by
    intro act io h2 h0 h1 h3 h4
    rcases hq (.client (.act act)) _ ⟨.client h2, ⟨h3, .inl rfl, h4, .inl rfl⟩⟩ h0 with h6 | h6
    · exact h1 h6
    · cases h6
  have noS : ∀ {a q}, Pool.Step ks w.server a q → a ≠ .timeout →
      (a = .peer ∨ a = .writeFails →
        ∃ act, Pool.kindOf act = some a ∧ Move ks kc (Desk.side w.server) w.client (.act act) (Desk.side q)) →
      (q.io.out = w.server.io.out ∨ q.io.out.length ≤ w.client.io.arrived.length + c.toLeft) →
      (q.io.arrived = w.server.io.arrived ∨ Asks w.server.io) → False := by
    intro a q h1 h2 h3 h4 h5
    rcases hq (.server a) _ ⟨.server h1 h3, ⟨.inl rfl, h4, .inl rfl, h5⟩⟩ trivial with h6 | h6
    · cases h6
    · cases h6; exact h2 rfl
  -- the reader of the client has handed over all
  have hread : w.client.io.reader = .reading := by
    cases e : w.client.io.reader with
    | reading => rfl
    | sending m => exact (noC (.own hg (.deliver _ m e hr) (by simp) (by simp) (by simp)) hd id (.inl rfl) (.inl rfl)).elim
    | _ => have := h.readC; rw [e] at this; cases this
  have hno : ∀ r, ¬ Settled w.client.io r := by
    intro r hs
    exact noC (.own hg (.read _ r hread hs) (by simp) (by simp) (by simp)) trivial id (by cases r <;> exact .inl rfl)
      (by cases r <;> exact .inl rfl)
  have toC : w.client.io.arrived = w.server.io.out := by
    obtain ⟨t, ht⟩ := p4
    by_cases hne : t = []
    · rw [← ht, hne, List.append_nil]
    · exact (noC (.arrive hg hne (by simp only [Desk.side]; rw [ht]; exact List.prefix_refl _)
        (.arrive _ t h.inC)) trivial id (.inl rfl) (.inr ⟨hread, hno⟩)).elim
  -- the writer of the server has written all
  have hidle : w.server.io.writer = .idle := by
    rcases desk_writer hm h B with e | ⟨r, e⟩
    · exact e
    · exfalso
      cases r with
      | nil => exact noS (.io (.written _ e) rfl) (by simp) (by simp) (.inl rfl) (.inl rfl)
      | cons b r =>
        refine noS (.io (.write _ [b] r e (by simp)) rfl) (by simp) (by simp) (.inr ?_) (.inl rfl)
        simp only [List.length_append, List.length_singleton, toC]
        omega
  -- the workers have sent all
  have hfree : ∀ x ∈ w.server.workers, x = .idle := by
    intro x hx
    rcases B.workers x hx with e | ⟨r, rfl⟩
    · exact e
    · obtain ⟨q, h1, h2, h3⟩ := desk_send (ks := ks) hx hidle B.tx
      exact (noS h1 (by simp) (by simp) (.inl h2) (.inl h3)).elim
  have hsome : App.idle ∈ w.server.workers := by
    cases e : w.server.workers with
    | nil => have := B.len; rw [e] at this; simp at this; omega
    | cons x l => rw [← hfree x (by rw [e]; simp)]; simp
  -- and received all
  have hreadS : w.server.io.reader = .reading := by
    cases e : w.server.io.reader with
    | reading => rfl
    | sending m =>
      obtain ⟨q, h1, h2, h3⟩ := desk_recv (ks := ks) hsome e B.rx
      exact (noS h1 (by simp) (by simp) (.inl h2) (.inl h3)).elim
    | _ => have := h.readS; rw [e] at this; cases this
  have hnoS : ∀ r, ¬ Settled w.server.io r := by
    intro r hs
    exact noS (.io (.read _ r hreadS hs) rfl) (by simp) (by simp) (by cases r <;> exact .inl rfl)
      (by cases r <;> exact .inl rfl)
  have toS : w.server.io.arrived = w.client.io.out := by
    obtain ⟨t, ht⟩ := p3
    by_cases hne : t = []
    · rw [← ht, hne, List.append_nil]
    · have hst := Transport.Step.arrive (k := ks) w.server.io t h.inS
      exact (noS (.io hst rfl) (by simp) (fun _ => ⟨_, rfl,
        .arrive rfl hne (by simp only [Desk.side]; rw [ht]; exact List.prefix_refl _) hst⟩)
        (.inl rfl) (.inr ⟨hreadS, hnoS⟩)).elim
  have hidleC : w.client.io.writer = .idle := by
    cases e : w.client.io.writer with
    | idle => rfl
    | done => have := (C54_drained p1 e).1; rw [ht] at this; cases this
    | failed => exact absurd e h.writeC.1
    | panicked => exact absurd e h.writeC.2
    | writing r =>
      exfalso
      cases r with
      | nil => exact noC (.own hg (.written _ e) (by simp) (by simp) (by simp)) trivial id (.inl rfl) (.inl rfl)
      | cons b r =>
        refine noC (.own hg (.write _ [b] r e (by simp)) (by simp) (by simp) (by simp)) trivial id (.inr ?_) (.inl rfl)
        simp only [List.length_append, List.length_singleton, toS]
        omega
  have hwi := writeInv p1
  simp only [WriteInv, hidleC] at hwi
  have hwiS := writeInv p2
  simp only [WriteInv, hidle] at hwiS
  refine ⟨?_, ?_, owed_none _ hfree, hidleC⟩
  · exact C56_heard_all (link_pair h.link) (fun m hm => (hok m hm).1) (by simp only [Desk.sides, Desk.side]; rw [toS, hwi])
      hreadS (by rintro ⟨s', hs⟩; cases hs with | read r _ hs => exact hnoS r hs)
  · exact C56_heard_all (pair_swap (link_pair h.link)) (fun m hm => (B.sayable m hm).1)
      (by simp only [Desk.sides, Desk.side]; rw [toC, hwiS])
      hread (by rintro ⟨s', hs⟩; cases hs with | read r _ hs => exact hno r hs)

/-- Everybody waits: the thread of the client, which sends, for its writer thread, this one for the reader thread of the
server, this one for a worker, each of these for the writer thread of the server, this one for the reader thread of the
client, and this one for the thread of the client. Specification about README.md:37-61, bsp-server/src/transporter.rs:14-80
on both sides. -/
structure Spec.Crowded (w : Desk.World) : Prop where
  clientWrites : ∃ b r, w.client.io.writer = .writing (b :: r)
  serverHands : ∃ m, w.server.io.reader = .sending m
  serverSends : ∀ x ∈ w.server.workers, ∃ m, toSend x = some m
  serverWrites : ∃ b r, w.server.io.writer = .writing (b :: r)
  clientHands : ∃ m, w.client.io.reader = .sending m

/-- When the client sends and waits, everybody waits. -/
theorem desk_crowded (hn : 1 ≤ n) (hc : 1 ≤ c.toRight) (hc' : 1 ≤ c.toLeft) {w0 w : Desk.World} {bs : List Pool.Act}
    {ds sent : List Message} (hm : Spec.Staffed kc ks n w0)
    (h : AtDesk kc ks n w0 bs w) (B : Books w0 w n ds sent) (hg : w.client.gone = false)
    (ht : w.client.io.txAlive = true) (hq : Desk.Waits c kc ks script sends w) (hp : w.client.io.accepted <+: script)
    (hne : w.client.io.accepted ≠ script) (hd : sends w.client.io.accepted w.client.io.delivered = true) :
    Spec.Crowded w ∧ (∀ x ∈ w.server.workers, ∃ r, x = .answering r) ∧
    w.client.io.arrived.length + c.toLeft < w.server.io.out.length + 1 := by
  obtain ⟨p1, p2, p3, p4⟩ := pair_inv (link_pair h.link)
  simp only [Desk.sides, Desk.side] at p1 p2 p3 p4
  have noC : ∀ {act io}, Move kc ks w.client (Desk.side w.server) (.act act) { w.client with io } →
      Desk.Chooses script sends w (.client (.act act)) → ¬ Desk.Leaves (.client (.act act)) →
      (io.out = w.client.io.out ∨ io.out.length ≤ w.server.io.arrived.length + c.toRight) →
      (io.arrived = w.client.io.arrived ∨ Asks w.client.io) → False := by
    intro act io h2 h0 h1 h3 h4
    rcases hq (.client (.act act)) _ ⟨.client h2, ⟨h3, .inl rfl, h4, .inl rfl⟩⟩ h0 with h6 | h6
    · exact h1 h6
    · cases h6
  have noS : ∀ {a q}, Pool.Step ks w.server a q → a ≠ .timeout →
      (a = .peer ∨ a = .writeFails →
        ∃ act, Pool.kindOf act = some a ∧ Move ks kc (Desk.side w.server) w.client (.act act) (Desk.side q)) →
      (q.io.out = w.server.io.out ∨ q.io.out.length ≤ w.client.io.arrived.length + c.toLeft) →
      (q.io.arrived = w.server.io.arrived ∨ Asks w.server.io) → False := by
    intro a q h1 h2 h3 h4 h5
    rcases hq (.server a) _ ⟨.server h1 h3, ⟨.inl rfl, h4, .inl rfl, h5⟩⟩ trivial with h6 | h6
    · cases h6
    · cases h6; exact h2 rfl
  have clientWrites : ∃ b r, w.client.io.writer = .writing (b :: r) := by
    cases e : w.client.io.writer with
    | failed => exact absurd e h.writeC.1
    | panicked => exact absurd e h.writeC.2
    | done => have := (C54_drained p1 e).1; rw [ht] at this; cases this
    | writing r =>
      cases r with
      | cons b r => exact ⟨b, r, rfl⟩
      | nil => exact (noC (.own hg (.written _ e) (by simp) (by simp) (by simp)) trivial id (.inl rfl) (.inl rfl)).elim
    | idle =>
      exfalso
      obtain ⟨t, hsaid⟩ := hp
      cases t with
      | nil => rw [List.append_nil] at hsaid; exact hne hsaid
      | cons m t =>
        exact noC (.own hg (.accept _ m e ht) (by simp) (by simp) (by simp)) ⟨⟨t, by rw [← hsaid]; simp⟩, hd⟩ id
          (.inl rfl) (.inl rfl)
  obtain ⟨b, r, hw⟩ := clientWrites
  have full : w.server.io.arrived.length + c.toRight < w.client.io.out.length + 1 := by
    refine Nat.lt_of_not_le fun hle => ?_
    refine noC (.own hg (.write _ [b] r hw (by simp)) (by simp) (by simp) (by simp)) trivial id (.inr ?_) (.inl rfl)
    simpa only [List.length_append, List.length_singleton] using hle
  have serverHands : ∃ m, w.server.io.reader = .sending m := by
    cases e : w.server.io.reader with
    | sending m => exact ⟨m, rfl⟩
    | reading =>
      exfalso
      by_cases hs : ∃ r, Settled w.server.io r
      · obtain ⟨r, hs⟩ := hs
        exact noS (.io (.read _ r e hs) rfl) (by simp) (by simp)
          (by cases r <;> exact .inl rfl) (by cases r <;> exact .inl rfl)
      · have hs : ∀ r, ¬ Settled w.server.io r := fun r hr => hs ⟨r, hr⟩
        obtain ⟨t, ht⟩ := p3
        have hst := Transport.Step.arrive (k := ks) w.server.io t h.inS
        refine noS (.io hst rfl) (by simp) (fun _ => ⟨_, rfl,
          .arrive rfl ?_ (by simp only [Desk.side]; rw [ht]; exact List.prefix_refl _) hst⟩)
          (.inl rfl) (.inr ⟨e, hs⟩)
        rintro rfl
        rw [List.append_nil] at ht
        rw [ht] at full
        omega
    | _ => have := h.readS; simp [e, Reader.ended] at this
  obtain ⟨m, hh⟩ := serverHands
  have hbusy : ∀ x ∈ w.server.workers, ∃ r, x = .answering r := by
    intro x hx
    rcases B.workers x hx with rfl | e
    · obtain ⟨q, h1, h2, h3⟩ := desk_recv (ks := ks) hx hh B.rx
      exact (noS h1 (by simp) (by simp) (.inl h2) (.inl h3)).elim
    · exact e
  obtain ⟨x, hx⟩ : ∃ x, x ∈ w.server.workers := by
    cases e : w.server.workers with
    | nil => have := B.len; rw [e] at this; simp at this; omega
    | cons x l => exact ⟨x, by simp⟩
  obtain ⟨q, rfl⟩ := hbusy x hx
  have serverWrites : ∃ b r, w.server.io.writer = .writing (b :: r) := by
    rcases desk_writer hm h B with e | ⟨r, e⟩
    · obtain ⟨q, h1, h2, h3⟩ := desk_send (ks := ks) hx e B.tx
      exact (noS h1 (by simp) (by simp) (.inl h2) (.inl h3)).elim
    · cases r with
      | nil => exact (noS (.io (.written _ e) rfl) (by simp) (by simp) (.inl rfl) (.inl rfl)).elim
      | cons b r => exact ⟨b, r, e⟩
  obtain ⟨b', r', hw'⟩ := serverWrites
  have full' : w.client.io.arrived.length + c.toLeft < w.server.io.out.length + 1 := by
    refine Nat.lt_of_not_le fun hle => ?_
    refine noS (.io (.write _ [b'] r' hw' (by simp)) rfl) (by simp) (by simp) (.inr ?_) (.inl rfl)
    simpa only [List.length_append, List.length_singleton] using hle
  refine ⟨⟨⟨b, r, hw⟩, ⟨m, hh⟩, ?_, ⟨b', r', hw'⟩, ?_⟩, hbusy, full'⟩
  · intro x hx
    obtain ⟨r, rfl⟩ := hbusy x hx
    exact ⟨_, rfl⟩
  cases e : w.client.io.reader with
  | sending m => exact ⟨m, rfl⟩
  | reading =>
    exfalso
    by_cases hs : ∃ r, Settled w.client.io r
    · obtain ⟨r, hs⟩ := hs
      exact noC (.own hg (.read _ r e hs) (by simp) (by simp) (by simp)) trivial id
        (by cases r <;> exact .inl rfl) (by cases r <;> exact .inl rfl)
    · have hs : ∀ r, ¬ Settled w.client.io r := fun r hr => hs ⟨r, hr⟩
      obtain ⟨t, htt⟩ := p4
      refine noC (.arrive hg ?_ (by simp only [Desk.side]; rw [htt]; exact List.prefix_refl _)
        (.arrive _ t h.inC)) trivial id (.inl rfl) (.inr ⟨e, hs⟩)
      rintro rfl
      rw [List.append_nil] at htt
      rw [htt] at full'
      omega
  | _ => have := h.readC; simp [e, Reader.ended] at this

theorem desk_got {w0 w : Desk.World} {as : List Desk.Ev} (h : Desk.Steps c kc ks w0 as w) :
    w0.client.io.delivered <+: w.client.io.delivered := by
  induction h with
  | nil => exact List.prefix_refl _
  | snoc _ hs ih =>
    have hs := hs.goes
    cases hs with
    | server => exact ih
    | client hmv => exact ih.trans (move_grows hmv).delivered

/-- Then two answers more than there are workers are due, and they do not fit. -/
theorem desk_due {w0 w : Desk.World} {bs : List Pool.Act}
    {ds sent : List Message} (hm : Spec.Staffed kc ks n w0)
    (h : AtDesk kc ks n w0 bs w) (B : Books w0 w n ds sent) (hcr : Spec.Crowded w)
    (hgot : w0.client.io.delivered <+: w.client.io.delivered)
    (hfull : w.client.io.arrived.length + c.toLeft < w.server.io.out.length + 1) :
    ∃ got due, sent = got ++ due ∧ w.client.io.delivered = w0.client.io.delivered ++ got.map Spec.heard ∧
      2 ≤ due.length ∧ c.toLeft < (due.flatMap Frame.write).length := by
  obtain ⟨p1, p2, p3, p4⟩ := pair_inv (link_pair h.link)
  simp only [Desk.sides, Desk.side] at p1 p2 p3 p4
  obtain ⟨b, r, hwr⟩ := hcr.serverWrites
  have hwi := writeInv p2
  simp only [WriteInv, hwr] at hwi
  obtain ⟨ms, m, out, e1, e2, e3⟩ := hwi
  have e4 := congrArg List.length e2
  obtain ⟨x, hx⟩ := hcr.clientHands
  obtain ⟨⟨used, ps, hu, hps, hca⟩, _, _⟩ := (readInv p1).1
  simp only [Spec.Pending, hx] at hps
  subst hps
  obtain ⟨rest, hrest⟩ := p4.trans (C53_output p2).1
  obtain ⟨n1, n2, f1, f2, f3⟩ := carries_written hca (ns := w.server.io.accepted) (r := w.client.io.unread ++ rest)
    (fun n hn => (B.sayable n hn).1.carried.size) (by rw [← List.append_assoc, ← hu]; exact hrest)
  have hpre : w.client.io.delivered <+: w.server.io.accepted.map Spec.heard :=
    C56_heard (pair_swap (link_pair h.link)) (fun m hm => (B.sayable m hm).1)
  have hd0 : w0.client.io.delivered = w0.server.io.accepted.map Spec.heard := hm.met.toClient
  rw [List.length_append, List.length_singleton] at f3
  have hlen := congrArg List.length hu
  rw [List.length_append, f2] at hlen
  -- all that has been accepted
  have htot : w.server.io.out.length < (w.server.io.accepted.flatMap Frame.write).length := by
    rw [e1, e3]
    simp only [List.flatMap_append, List.flatMap_cons, List.flatMap_nil, List.append_nil, List.length_append,
      List.length_cons] at e4 ⊢
    omega
  have hn2 : n2 ≠ [] := by
    rintro rfl
    rw [List.append_nil] at f1
    rw [f1] at htot
    omega
  have hn2 := List.length_pos_iff.2 hn2
  have hA := congrArg List.length f1
  rw [List.length_append] at hA
  obtain ⟨d, hd⟩ := hgot
  obtain ⟨t, htt⟩ := hpre
  rw [← hd, B.accepted, List.map_append, hd0, List.append_assoc, List.append_cancel_left_eq] at htt
  obtain ⟨got, due, rfl, rfl, h1⟩ := List.map_eq_append_iff.1 htt.symm
  have hk : w.client.io.delivered.length = w0.server.io.accepted.length + got.length := by
    rw [← hd, hd0]; simp
  refine ⟨got, due, rfl, hd.symm, ?_, ?_⟩
  · rw [B.accepted] at hA
    simp only [List.length_append] at hA
    omega
  · have h2 : w0.server.io.accepted ++ got <+: n1 := by
      refine List.prefix_of_prefix_length_le (l₃ := w.server.io.accepted) ?_ ?_ ?_
      · rw [B.accepted, ← List.append_assoc]; exact List.prefix_append _ _
      · rw [f1]; exact List.prefix_append _ _
      · rw [List.length_append, f3]; omega
    have h3 := (flatMap_prefix (f := Frame.write) h2).length_le
    have h4 : (w.server.io.accepted.flatMap Frame.write).length =
        ((w0.server.io.accepted ++ got).flatMap Frame.write).length + (due.flatMap Frame.write).length := by
      rw [B.accepted, ← List.append_assoc, List.flatMap_append, List.length_append]
    omega

omit [LawfulExt] [Dbg] [FloatText] in
theorem requests_more [Ext] (a b : List Message) (h : a <+: b) :
    (Spec.requests b).length ≤ (Spec.requests a).length + (b.length - a.length) := by
  obtain ⟨t, rfl⟩ := h
  have : ∀ t : List Message, (Spec.requests t).length ≤ t.length := by
    intro t
    induction t with
    | nil => simp [Spec.requests]
    | cons m t ih => cases m <;> simp only [Spec.requests, List.length_cons] <;> omega
  have := this t
  rw [reqs_append, List.length_append, List.length_append]
  omega

omit [Dbg] [FloatText] in
theorem desk_anyOrder (said : List Message) {sent : List Message}
    (h : sent.Perm ((Spec.requests (said.map Spec.heard)).map Conn.reply)) :
    Spec.AnyOrder (Spec.requests (said.map Spec.heard)) sent := by
  have h4 : (Spec.requests (said.map Spec.heard)).map answerTo = (Spec.requests (said.map Spec.heard)).map Conn.reply := by
    refine List.map_congr_left fun r hr => answerTo_reply ?_
    rintro id rfl
    obtain ⟨m, _, h2⟩ := List.mem_map.1 (mem_of_requests hr)
    exact heard_shutdown m id h2
  exact anyOrder (by rw [h4]; exact h) (.refl _)

/-- C129: a client with one thread is connected to a server in which `n` threads run the loop of the README.  It sends only
if the answers that it has not received yet fit into the buffer or are at most `n + 1`, and receives only if there are some.
However small the buffers, when it waits (C129_terminates), it has sent all and received the answer to each of its requests,
and nothing else. -/
theorem C129_served (hn : 1 ≤ n) (hc : 1 ≤ c.toRight) (hc' : 1 ≤ c.toLeft) {w0 w : Desk.World} {as : List Desk.Ev}
    (hm : Spec.Staffed kc ks n w0) (hs : Spec.Askable said)
    (hp : Spec.Wary n c.toLeft w0.client.io.accepted w0.client.io.delivered said sends)
    (h : Desk.Dialog c kc ks (w0.client.io.accepted ++ said) sends w0 as w) (hg : w.client.gone = false)
    (hr : w.client.io.rxAlive = true) (ht : w.client.io.txAlive = true)
    (hq : Desk.Waits c kc ks (w0.client.io.accepted ++ said) sends w) :
    w.client.io.accepted = w0.client.io.accepted ++ said ∧
    ∃ sent, Spec.AnyOrder (Spec.requests (said.map Spec.heard)) sent ∧
      w.client.io.delivered = w0.client.io.delivered ++ sent.map Spec.heard := by
  obtain ⟨⟨a, ha⟩, h2⟩ := desk_said h (List.prefix_append _ _)
  have hst := desk_dialog h
  obtain ⟨bs, hh⟩ := atDesk hn hm hs hst hg hr h2
  obtain ⟨ds, sent, B⟩ := desk_books hn hm hs hh.link hh.pool hh.wrote hh.inS ⟨a, ha⟩ h2
  have hpre := h2
  rw [← ha, List.prefix_append_right_inj] at h2
  have hok : ∀ m ∈ w.client.io.accepted, Spec.Sayable m ∧ m ≠ .notification .exit := by
    intro m h1
    rcases List.mem_append.1 (hpre.subset h1) with h1 | h1
    · exact hm.met.sayable m (.inl h1)
    · exact hs.sayable m h1
  have hd0 : w0.client.io.delivered = w0.server.io.accepted.map Spec.heard := hm.met.toClient
  have ha0 : w0.server.io.delivered = w0.client.io.accepted.map Spec.heard := hm.met.toServer
  have recv : w.client.io.accepted = w0.client.io.accepted ++ said ∨
      sends w.client.io.accepted w.client.io.delivered = false →
      sent.Perm ((Spec.requests (a.map Spec.heard)).map Conn.reply) ∧
      w.client.io.delivered = w0.client.io.delivered ++ sent.map Spec.heard := by
    intro hd
    obtain ⟨e1, e2, e3, _⟩ := desk_received hn hc hc' hm hh B hg hr ht hok hq hd
    rw [B.delivered, ← ha, List.map_append, ha0, List.append_cancel_left_eq] at e1
    subst e1
    have h1 := B.answered
    rw [e3, List.append_nil] at h1
    exact ⟨h1, by rw [e2, B.accepted, List.map_append, hd0]⟩
  have hall : w.client.io.accepted = w0.client.io.accepted ++ said := by
    refine Classical.byContradiction fun hne => ?_
    have hne' : a ≠ said := fun e => hne (by rw [← ha, e])
    cases hd : sends w.client.io.accepted w.client.io.delivered with
    | true =>
      obtain ⟨c1, c2, c3⟩ := desk_crowded hn hc hc' hm hh B hg ht hq hpre hne hd
      obtain ⟨got, due, rfl, d2, d3, d4⟩ := desk_due hm hh B c1 (desk_got hst) c3
      have hdel : w.server.io.delivered <+: w.client.io.accepted.map Spec.heard :=
        C56_heard (link_pair hh.link) (fun m hm => (hok m hm).1)
      rw [B.delivered, ← ha, List.map_append, ha0, List.prefix_append_right_inj] at hdel
      obtain ⟨t, ht⟩ := hdel
      have hperm : (got ++ (due ++ owed w.server.workers ++ (Spec.requests t).map Conn.reply)).Perm
          ((Spec.requests (a.map Spec.heard)).map Conn.reply) := by
        rw [← ht, reqs_append, List.map_append, ← List.append_assoc, ← List.append_assoc]
        exact B.answered.append_right _
      rw [← ha, d2] at hd
      have := (hp a h2 hne' _ _ hperm).1 hd
      have e1 := owed_all _ c2
      rw [B.len] at e1
      simp only [List.flatMap_append, List.length_append, e1] at this
      omega
    | false =>
      obtain ⟨e1, e2⟩ := recv (.inr hd)
      rw [← ha, e2] at hd
      exact (hp a h2 hne' sent [] (by simpa using e1)).2 hd rfl
  refine ⟨hall, sent, ?_, (recv (.inl hall)).2⟩
  have e : a = said := by rw [← ha, List.append_cancel_left_eq] at hall; exact hall
  have h1 := (recv (.inl hall)).1
  rw [e] at h1
  exact desk_anyOrder said h1

/-- C129: if the client has another thread, which receives all the time, it is served as well, however many workers there
are and however small the buffers: when nothing can happen any more but that it sends, it has received the answer to each of
the requests that it has sent, and nothing else, and its writer thread is waiting for the next message. -/
theorem C129_rest (hn : 1 ≤ n) (hc : 1 ≤ c.toRight) (hc' : 1 ≤ c.toLeft) {w0 w : Desk.World} {as : List Desk.Ev}
    (hm : Spec.Staffed kc ks n w0) (hs : Spec.Askable said) (h : Desk.Steps c kc ks w0 as w) (hg : w.client.gone = false)
    (hr : w.client.io.rxAlive = true) (ht : w.client.io.txAlive = true)
    (hacc : w.client.io.accepted = w0.client.io.accepted ++ said) (hq : Desk.Quiet c kc ks w) :
    (∃ sent, Spec.AnyOrder (Spec.requests (said.map Spec.heard)) sent ∧
      w.client.io.delivered = w0.client.io.delivered ++ sent.map Spec.heard) ∧
    ∀ m, ∃ u, Desk.Step c kc ks w (.client (.act (.accept m))) u ∧ u.client.io.accepted = w.client.io.accepted ++ [m] := by
  have h2 : w.client.io.accepted <+: w0.client.io.accepted ++ said := by rw [hacc]; exact List.prefix_refl _
  obtain ⟨bs, hh⟩ := atDesk hn hm hs h hg hr h2
  obtain ⟨ds, sent, B⟩ := desk_books hn hm hs hh.link hh.pool hh.wrote hh.inS ⟨said, hacc.symm⟩ h2
  have hok : ∀ m ∈ w.client.io.accepted, Spec.Sayable m ∧ m ≠ .notification .exit := by
    intro m h1
    rcases List.mem_append.1 (h2.subset h1) with h1 | h1
    · exact hm.met.sayable m (.inl h1)
    · exact hs.sayable m h1
  have hd0 : w0.client.io.delivered = w0.server.io.accepted.map Spec.heard := hm.met.toClient
  have ha0 : w0.server.io.delivered = w0.client.io.accepted.map Spec.heard := hm.met.toServer
  have hq' : Desk.Waits c kc ks w.client.io.accepted (fun _ _ => true) w := by
    intro a v h1 h3
    rcases hq a v h1 with ⟨m, rfl⟩ | h4
    · have := h3.1.length_le
      rw [List.length_append, List.length_singleton] at this
      omega
    · exact h4
  obtain ⟨e1, e2, e3, hwr⟩ := desk_received hn hc hc' hm hh B hg hr ht hok hq' (.inl rfl)
  rw [B.delivered, hacc, List.map_append, ha0, List.append_cancel_left_eq] at e1
  subst e1
  have h1 := B.answered
  rw [e3, List.append_nil] at h1
  refine ⟨⟨sent, desk_anyOrder said h1, by rw [e2, B.accepted, List.map_append, hd0]⟩, fun m => ?_⟩
  exact ⟨_, ⟨.client (.own hg (.accept _ m hwr ht) (by simp) (by simp) (by simp)), ⟨.inl rfl, .inl rfl, .inl rfl, .inl rfl⟩⟩, rfl⟩

/-! ### It gets there -/

/-- The same client and the same threads, for what is left to be done (C96). -/
def deskWorld (w : Desk.World) : EndToEnd.World := { client := w.client, server := { io := w.server.io } }

/-- What is left to be done. -/
def deskWork (script : List Message) (w : Desk.World) : Nat × Nat × (Nat × Nat) × Nat :=
  (script.length - w.client.io.accepted.length, toServer (deskWorld w), poolWork w.server, toClient (deskWorld w))

/-- Only the peer brings something. -/
theorem pool_takes {p q : Pool.State} {a : Pool.Act} (h : Pool.Step ks p a q) (hp : a ≠ .peer) :
    q.io.arrived = p.io.arrived ∧ q.io.inEnd = p.io.inEnd := by
  cases h with
  | io hs hk =>
    cases hs with
    | arrive _ _ => simp [Pool.kindOf] at hk; exact absurd hk.symm hp
    | hangUp _ _ => simp [Pool.kindOf] at hk; exact absurd hk.symm hp
    | read r _ _ => cases r <;> exact ⟨rfl, rfl⟩
    | _ => exact ⟨rfl, rfl⟩
  | recv _ hs => cases hs with | deliver _ _ => exact ⟨rfl, rfl⟩
  | send _ hs => cases hs with | accept _ _ => exact ⟨rfl, rfl⟩
  | _ => exact ⟨rfl, rfl⟩

theorem deskWork_decreases {w w' : Desk.World} {a : Desk.Ev} (hs : Desk.Step c kc ks w a w')
    (ht : Desk.Chooses script sends w a) (hl : ¬ Desk.Leaves a) :
    Prod.Lex (· < ·) (Prod.Lex (· < ·) (Prod.Lex (Prod.Lex (· < ·) (· < ·)) (· < ·)))
      (deskWork script w') (deskWork script w) := by
  by_cases ha : ∃ m, a = .client (.act (.accept m))
  · obtain ⟨m, rfl⟩ := ha
    have hle := List.IsPrefix.length_le ht.1
    refine .left _ _ ?_
    have hs := hs.goes
    cases hs with
    | client hm =>
      cases hm with
      | own _ hst =>
        cases hst with
        | accept m =>
          simp only [List.length_append, List.length_singleton] at hle ⊢
          omega
  · have hacc : w'.client.io.accepted = w.client.io.accepted := by
      rcases desk_sent hs with h | ⟨m, rfl, _⟩
      · exact h
      · exact absurd ⟨m, rfl⟩ ha
    refine Prod.lex_def.2 (.inr ⟨by simp only [deskWork, hacc], ?_⟩)
    have hs := hs.goes
    cases hs with
    | @client ev x hm =>
      have happ : ev.app = false := by
        cases ev with
        | exit => exact absurd trivial hl
        | act y =>
          cases y with
          | accept m => exact absurd ⟨m, rfl⟩ ha
          | dropRx => exact absurd trivial hl
          | dropTx => exact absurd trivial hl
          | _ => rfl
      rcases client_work (w := deskWorld w) hm happ with h1 | ⟨h1, h2⟩
      · exact .left _ _ h1
      · exact Prod.lex_def.2 (.inr ⟨h1, Prod.lex_def.2 (.inr ⟨rfl, h2⟩)⟩)
    | @server a p hst hpe =>
      by_cases h1 : a = .peer
      · obtain ⟨act, h2, h3⟩ := hpe (.inl h1)
        refine .left _ _ (peer_work (w := deskWorld w) (p := { io := p.io }) (act := act) ?_ h3)
        rw [h1] at h2
        cases act <;> first | rfl | cases h2
      · have h2 := pool_takes hst h1
        refine Prod.lex_def.2 (.inr ⟨?_, .left _ _ (poolWork_decreases hst h1)⟩)
        simp only [deskWork, deskWorld, toServer, h2]

/-- C129: whatever it decides, the client gets to where it waits, or leaves. -/
theorem C129_terminates (c : Caps) (kc ks : Kind) (script : List Message) (sends : Policy) :
    WellFounded fun w' w : Desk.World => ∃ a, Desk.Step c kc ks w a w' ∧ Desk.Chooses script sends w a ∧ ¬ Desk.Leaves a :=
  Subrelation.wf (fun ⟨_, h1, h2, h3⟩ => deskWork_decreases h1 h2 h3)
    (InvImage.wf (deskWork script) (Prod.lex ⟨_, Nat.lt_wfRel.wf⟩ ⟨_, (Prod.lex ⟨_, Nat.lt_wfRel.wf⟩ ⟨_, (Prod.lex ⟨_,
      (Prod.lex ⟨_, Nat.lt_wfRel.wf⟩ ⟨_, Nat.lt_wfRel.wf⟩).wf⟩ ⟨_, Nat.lt_wfRel.wf⟩).wf⟩).wf⟩).wf)

theorem desk_append {u w x : Desk.World} {as bs : List Desk.Ev}
    (h1 : Desk.Dialog c kc ks script sends u as w) (h2 : Desk.Dialog c kc ks script sends w bs x) :
    Desk.Dialog c kc ks script sends u (as ++ bs) x := by
  induction h2 with
  | nil => simpa using h1
  | snoc _ h4 h5 ih => rw [← List.append_assoc]; exact .snoc ih h4 h5

/-- It goes on until it waits, the client neither dropping anything nor exiting. -/
theorem desk_settle (c : Caps) (kc ks : Kind) (script : List Message) (sends : Policy) (w : Desk.World) :
    ∃ as u, Desk.Dialog c kc ks script sends w as u ∧
      Desk.Waits c kc ks script sends u ∧ u.client.gone = w.client.gone ∧ u.client.io.rxAlive = w.client.io.rxAlive ∧
      u.client.io.txAlive = w.client.io.txAlive := by
  refine (C129_terminates c kc ks script sends).induction (C := fun w => ∃ as u,
    Desk.Dialog c kc ks script sends w as u ∧ Desk.Waits c kc ks script sends u ∧
      u.client.gone = w.client.gone ∧ u.client.io.rxAlive = w.client.io.rxAlive ∧
      u.client.io.txAlive = w.client.io.txAlive) w ?_
  intro w ih
  by_cases hq : Desk.Waits c kc ks script sends w
  · exact ⟨[], w, .nil w, hq, rfl, rfl, rfl⟩
  simp only [Desk.Waits, Classical.not_forall, not_or] at hq
  obtain ⟨a, u, h1, h2, n1, _⟩ := hq
  obtain ⟨as, r, h3, h4, k1, k2, k3⟩ := ih u ⟨a, h1, h2, n1⟩
  have keep : u.client.gone = w.client.gone ∧ u.client.io.rxAlive = w.client.io.rxAlive ∧
      u.client.io.txAlive = w.client.io.txAlive := by
    have hs := h1.goes
    cases hs with
    | server => exact ⟨rfl, rfl, rfl⟩
    | @client ev x hm =>
      cases ha : ev.app with
      | false => obtain ⟨i1, _, i2, i3⟩ := move_keeps hm ha; exact ⟨i1, i2, i3⟩
      | true =>
        cases hm with
        | own _ hst =>
          cases hst with
          | accept m => exact ⟨rfl, rfl, rfl⟩
          | dropRx => exact absurd trivial n1
          | dropTx => exact absurd trivial n1
          | _ => cases ha
        | exit => exact absurd trivial n1
        | _ => cases ha
  exact ⟨[a] ++ as, r, desk_append (.snoc (.nil _) h1 h2) h3, h4, k1.trans keep.1, k2.trans keep.2.1, k3.trans keep.2.2⟩

/-- C129: so there is a run in which such a client sends all that it has to say and is served. -/
theorem C129_reached (hn : 1 ≤ n) (hc : 1 ≤ c.toRight) (hc' : 1 ≤ c.toLeft) {w0 : Desk.World}
    (hm : Spec.Staffed kc ks n w0) (hg : w0.client.gone = false) (hr : w0.client.io.rxAlive = true)
    (ht : w0.client.io.txAlive = true) (hs : Spec.Askable said)
    (hp : Spec.Wary n c.toLeft w0.client.io.accepted w0.client.io.delivered said sends) :
    ∃ as w, Desk.Dialog c kc ks (w0.client.io.accepted ++ said) sends w0 as w ∧
      w.client.io.accepted = w0.client.io.accepted ++ said ∧
      ∃ sent, Spec.AnyOrder (Spec.requests (said.map Spec.heard)) sent ∧
        w.client.io.delivered = w0.client.io.delivered ++ sent.map Spec.heard := by
  obtain ⟨as, w, h1, h2, k1, k2, k3⟩ := desk_settle c kc ks (w0.client.io.accepted ++ said) sends w0
  obtain ⟨h3, h4⟩ := C129_served hn hc hc' hm hs hp h1 (k1.trans hg) (k2.trans hr) (k3.trans ht) h2
  exact ⟨as, w, h1, h3, h4⟩

/-! ### What the workers are good for -/

/-- C129: a client that sends all first, and has at most one request more than there are workers. -/
theorem C129_first (hn : 1 ≤ n) (hc : 1 ≤ c.toRight) (hc' : 1 ≤ c.toLeft) {w0 w : Desk.World} {as : List Desk.Ev}
    (hm : Spec.Staffed kc ks n w0) (hs : Spec.Askable said)
    (hfew : (Spec.requests (said.map Spec.heard)).length ≤ n + 1)
    (h : Desk.Dialog c kc ks (w0.client.io.accepted ++ said) (fun _ _ => true) w0 as w) (hg : w.client.gone = false)
    (hr : w.client.io.rxAlive = true) (ht : w.client.io.txAlive = true)
    (hq : Desk.Waits c kc ks (w0.client.io.accepted ++ said) (fun _ _ => true) w) :
    w.client.io.accepted = w0.client.io.accepted ++ said ∧
    ∃ sent, Spec.AnyOrder (Spec.requests (said.map Spec.heard)) sent ∧
      w.client.io.delivered = w0.client.io.delivered ++ sent.map Spec.heard := by
  refine C129_served hn hc hc' hm hs (fun a ha _ got due hp => ⟨fun _ => .inr ?_, fun h => by cases h⟩) h hg hr ht hq
  have h1 := hp.length_eq
  have h2 : (Spec.requests (a.map Spec.heard)).length ≤ (Spec.requests (said.map Spec.heard)).length := by
    obtain ⟨t, rfl⟩ := ha
    rw [List.map_append, reqs_append, List.length_append]
    omega
  simp only [List.length_append, List.length_map] at h1
  omega

/-- The client receives as soon as it has sent `k` requests (that the server hears as such) more than it has received
messages, from here on. Specification about bsp-server/src/lib.rs:37-40. -/
def Spec.atMost (k : Nat) (a0 d0 : List Message) : Policy := fun sent received =>
  decide ((Spec.requests ((sent.drop a0.length).map Spec.heard)).length < received.length - d0.length + k)

omit [Dbg] in
theorem atMost_wary {k : Nat} (hk : 1 ≤ k) (hkn : k ≤ n + 2) (cap : Nat) (a0 d0 said : List Message) :
    Spec.Wary n cap a0 d0 said (Spec.atMost k a0 d0) := by
  intro a _ _ got due hp
  have h1 := hp.length_eq
  simp only [List.length_append, List.length_map] at h1
  simp only [Spec.atMost, List.drop_left, List.length_append, List.length_map, decide_eq_true_eq, decide_eq_false_iff_not]
  refine ⟨fun h => .inr (by omega), ?_⟩
  rintro h rfl
  simp at h1
  omega

/-- C129: a client that never has more than two requests more under way than there are workers is served, however small the
buffers. -/
theorem C129_window {k : Nat} (hk : 1 ≤ k) (hkn : k ≤ n + 2) (hn : 1 ≤ n) (hc : 1 ≤ c.toRight) (hc' : 1 ≤ c.toLeft)
    {w0 w : Desk.World} {as : List Desk.Ev} (hm : Spec.Staffed kc ks n w0) (hs : Spec.Askable said)
    (h : Desk.Dialog c kc ks (w0.client.io.accepted ++ said)
      (Spec.atMost k w0.client.io.accepted w0.client.io.delivered) w0 as w) (hg : w.client.gone = false)
    (hr : w.client.io.rxAlive = true) (ht : w.client.io.txAlive = true)
    (hq : Desk.Waits c kc ks (w0.client.io.accepted ++ said)
      (Spec.atMost k w0.client.io.accepted w0.client.io.delivered) w) :
    w.client.io.accepted = w0.client.io.accepted ++ said ∧
    ∃ sent, Spec.AnyOrder (Spec.requests (said.map Spec.heard)) sent ∧
      w.client.io.delivered = w0.client.io.delivered ++ sent.map Spec.heard :=
  C129_served hn hc hc' hm hs (atMost_wary hk hkn _ _ _ _) h hg hr ht hq

/-! ### What they are not good for -/

theorem desk_flow {w0 w : Desk.World} {as : List Desk.Ev} (h : Desk.Steps c kc ks w0 as w)
    (hf : Flow.Reachable c kc ks (Desk.sides w0)) : Flow.Reachable c kc ks (Desk.sides w) := by
  induction h with
  | nil => exact hf
  | @snoc as v a u hd hs ih =>
    obtain ⟨hg, hl⟩ := hs
    cases hg with
    | client hmv => exact .step ih (.left (l := Desk.sides v) hmv) hl
    | server hst hpe =>
      rcases desk_move (kc := kc) (x := v.client) hst hpe with h1 | ⟨ev, h1⟩
      · simp only [Desk.sides, h1]; exact ih
      · exact .step ih (.right (l := Desk.sides v) h1) hl

/-- How many requests the client can send without receiving. -/
theorem desk_bound (hn : 1 ≤ n) {w0 w : Desk.World} {as : List Desk.Ev} (hm : Spec.Staffed kc ks n w0)
    (hf : Flow.Reachable c kc ks (Desk.sides w0)) (hs : Spec.Askable said) (h : Desk.Steps c kc ks w0 as w)
    (hg : w.client.gone = false) (hr : w.client.io.rxAlive = true) {a : List Message} (ha : a <+: said)
    (hacc : w.client.io.accepted = w0.client.io.accepted ++ a) (hd : w.client.io.delivered = w0.client.io.delivered) :
    (Spec.requests (a.map Spec.heard)).length ≤ n + 2 * c.toRight / 21 + 2 * c.toLeft / 21 + 4 := by
  have h2 : w.client.io.accepted <+: w0.client.io.accepted ++ said := by
    rw [hacc, List.prefix_append_right_inj]; exact ha
  obtain ⟨bs, hh⟩ := atDesk hn hm hs h hg hr h2
  obtain ⟨ds, sent, B⟩ := desk_books hn hm hs hh.link hh.pool hh.wrote hh.inS ⟨a, hacc.symm⟩ h2
  have hok : ∀ m ∈ w.client.io.accepted, Spec.Sayable m := by
    intro m h1
    rcases List.mem_append.1 (h2.subset h1) with h1 | h1
    · exact (hm.met.sayable m (.inl h1)).1
    · exact (hs.sayable m h1).1
  have hd0 : w0.client.io.delivered = w0.server.io.accepted.map Spec.heard := hm.met.toClient
  have ha0 : w0.server.io.delivered = w0.client.io.accepted.map Spec.heard := hm.met.toServer
  obtain ⟨⟨_, b1⟩, _, b2⟩ := C122_ahead (desk_flow h hf) hok (fun m hm => (B.sayable m hm).1)
  simp only [Desk.sides, Desk.side] at b1 b2
  have hdel : w.server.io.delivered <+: w.client.io.accepted.map Spec.heard := C56_heard (link_pair hh.link) hok
  rw [B.delivered, hacc, List.map_append, ha0, List.prefix_append_right_inj] at hdel
  have e1 := requests_more _ _ hdel
  have e2 := B.answered.length_eq
  have e3 : (owed w.server.workers).length ≤ w.server.workers.length := List.length_filterMap_le _ _
  rw [B.accepted, hd, hd0] at b2
  rw [B.delivered, ha0, hacc] at b1
  simp only [List.length_append, List.length_map] at b1 b2 e1 e2
  rw [B.len] at e3
  omega

/-- C129: but a client that has so many requests and sends them all first never gets to the end, and never receives
anything: more workers only put it off. (If the server has a thread for each request instead, it gets there: C126.) -/
theorem C129_never (hn : 1 ≤ n) {w0 w : Desk.World} {as : List Desk.Ev} (hm : Spec.Staffed kc ks n w0)
    (hf : Flow.Reachable c kc ks (Desk.sides w0)) (hs : Spec.Askable said)
    (hmany : n + 2 * c.toRight / 21 + 2 * c.toLeft / 21 + 5 ≤ (Spec.requests (said.map Spec.heard)).length)
    (h : Desk.Dialog c kc ks (w0.client.io.accepted ++ said) (fun _ _ => true) w0 as w) (hg : w.client.gone = false)
    (hr : w.client.io.rxAlive = true) :
    w.client.io.delivered = w0.client.io.delivered ∧ w.client.io.accepted ≠ w0.client.io.accepted ++ said := by
  have key : ∀ {u w : Desk.World} {as}, Desk.Dialog c kc ks (w0.client.io.accepted ++ said) (fun _ _ => true) u as w →
      u = w0 → w.client.gone = false → w.client.io.rxAlive = true → w.client.io.delivered = w0.client.io.delivered := by
    intro u w as h
    induction h with
    | nil => rintro rfl _ _; rfl
    | @snoc as v a x hd hst ht ih =>
      rintro rfl hg hr
      obtain ⟨h1, h2⟩ := desk_back hst hg hr
      have h3 := ih rfl h1 h2
      obtain ⟨⟨y, hx⟩, h4⟩ := desk_said hd (List.prefix_append _ _)
      rw [← hx, List.prefix_append_right_inj] at h4
      have h5 := desk_bound hn hm hf hs (desk_dialog hd) h1 h2 h4 hx.symm h3
      have hgo := hst.goes
      cases hgo with
      | server => exact h3
      | client hmv =>
        cases hmv with
        | own _ hst' =>
          cases hst' with
          | deliver m =>
            exfalso
            rcases ht with ht | ht
            · rw [← hx, List.append_cancel_left_eq] at ht
              subst ht
              omega
            · cases ht
          | read r => cases r <;> exact h3
          | _ => exact h3
        | arrive _ _ _ hst' => cases hst'; exact h3
        | fin _ _ _ hst' => cases hst'; exact h3
        | reset _ _ _ _ hst' => cases hst'; exact h3
        | fails _ _ _ _ hst' => cases hst'; exact h3
        | exit => exact h3
  have hd := key h rfl hg hr
  refine ⟨hd, fun he => ?_⟩
  have := desk_bound hn hm hf hs (desk_dialog h) hg hr (List.prefix_refl _) he hd
  omega

/-- C129: it comes to a point where everybody waits for the next one, all workers included. -/
theorem C129_stuck (hn : 1 ≤ n) (hc : 1 ≤ c.toRight) (hc' : 1 ≤ c.toLeft) {w0 w : Desk.World} {as : List Desk.Ev}
    (hm : Spec.Staffed kc ks n w0) (hf : Flow.Reachable c kc ks (Desk.sides w0)) (hs : Spec.Askable said)
    (hmany : n + 2 * c.toRight / 21 + 2 * c.toLeft / 21 + 5 ≤ (Spec.requests (said.map Spec.heard)).length)
    (h : Desk.Dialog c kc ks (w0.client.io.accepted ++ said) (fun _ _ => true) w0 as w) (hg : w.client.gone = false)
    (hr : w.client.io.rxAlive = true) (ht : w.client.io.txAlive = true)
    (hq : Desk.Waits c kc ks (w0.client.io.accepted ++ said) (fun _ _ => true) w) :
    Spec.Crowded w ∧ w.server.workers.length = n := by
  obtain ⟨_, hne⟩ := C129_never hn hm hf hs hmany h hg hr
  obtain ⟨h1, h2⟩ := desk_said h (List.prefix_append _ _)
  obtain ⟨bs, hh⟩ := atDesk hn hm hs (desk_dialog h) hg hr h2
  obtain ⟨ds, sent, B⟩ := desk_books hn hm hs hh.link hh.pool hh.wrote hh.inS h1 h2
  exact ⟨(desk_crowded hn hc hc' hm hh B hg ht hq h2 hne rfl).1, B.len⟩

/-- C129: and there is such a run. -/
theorem C129_circle (hn : 1 ≤ n) (hc : 1 ≤ c.toRight) (hc' : 1 ≤ c.toLeft) {w0 : Desk.World}
    (hm : Spec.Staffed kc ks n w0) (hf : Flow.Reachable c kc ks (Desk.sides w0)) (hg : w0.client.gone = false)
    (hr : w0.client.io.rxAlive = true) (ht : w0.client.io.txAlive = true) (hs : Spec.Askable said)
    (hmany : n + 2 * c.toRight / 21 + 2 * c.toLeft / 21 + 5 ≤ (Spec.requests (said.map Spec.heard)).length) :
    ∃ as w, Desk.Dialog c kc ks (w0.client.io.accepted ++ said) (fun _ _ => true) w0 as w ∧
      Desk.Waits c kc ks (w0.client.io.accepted ++ said) (fun _ _ => true) w ∧ Spec.Crowded w := by
  obtain ⟨as, w, h1, h2, k1, k2, k3⟩ := desk_settle c kc ks (w0.client.io.accepted ++ said) (fun _ _ => true) w0
  exact ⟨as, w, h1, h2,
    (C129_stuck hn hc hc' hm hf hs hmany h1 (k1.trans hg) (k2.trans hr) (k3.trans ht) h2).1⟩

end
section
attribute [local instance] Ext.sample FloatText.sample Dbg.sample

/-- Two connected processes that have not sent anything yet; the server has `n` workers. -/
def deskStart (n : Nat) : Desk.World := { client := {}, server := Pool.start {} n }

theorem deskStart_staffed (kc ks : Kind) (n : Nat) : Spec.Staffed kc ks n (deskStart n) := ⟨hallStart_met kc ks, rfl⟩

/-- `k` requests, and a notification. -/
def asking (k : Nat) : List Message :=
  List.replicate k (.request (.buildTargetSources (.i32 0) ⟨[]⟩)) ++ [.notification .initialized]

theorem asking_heard (k : Nat) : (asking k).map Spec.heard = asking k := by
  rw [asking, List.map_append, List.map_replicate]
  rfl

theorem asking_requests (k : Nat) : Spec.requests ((asking k).map Spec.heard) =
    List.replicate k (.buildTargetSources (.i32 0) ⟨[]⟩) := by
  rw [asking_heard]
  induction k with
  | zero => rfl
  | succ k ih =>
    simp only [asking, List.replicate_succ, List.cons_append, Spec.requests] at ih ⊢
    rw [ih]

theorem asking_ok (k : Nat) : Spec.Askable (asking k) := by
  refine ⟨?_, ?_⟩
  · intro m hm
    rcases List.mem_append.1 hm with hm | hm
    · rw [(List.mem_replicate.1 hm).2]
      exact ⟨samplePlan.sayable _ (by simp [sampleSaid]), by simp⟩
    · rw [List.mem_singleton.1 hm]
      exact ⟨samplePlan.sayable _ (by simp [sampleSaid]), by simp⟩
  · intro r hr
    rw [asking_requests] at hr
    rw [(List.mem_replicate.1 hr).2]
    exact small_id (n := 0) rfl

/-- Beside C129_first, C129_never, C129_stuck and C129_circle: with room for one byte each way, three workers and a client
that sends all first.  With four requests it is served, with twelve it never is, and with twelve and eleven workers it is
again. -/
example (kc ks : Kind) :
    (∃ as w, Desk.Dialog ⟨1, 1⟩ kc ks (asking 4) (fun _ _ => true) (deskStart 3) as w ∧
      w.client.io.accepted = asking 4 ∧ w.client.io.delivered.length = 4) ∧
    (∃ as w, Desk.Dialog ⟨1, 1⟩ kc ks (asking 12) (fun _ _ => true) (deskStart 3) as w ∧
      Desk.Waits ⟨1, 1⟩ kc ks (asking 12) (fun _ _ => true) w ∧ Spec.Crowded w) ∧
    (∀ as w, Desk.Dialog ⟨1, 1⟩ kc ks (asking 12) (fun _ _ => true) (deskStart 3) as w → w.client.gone = false →
      w.client.io.rxAlive = true → w.client.io.txAlive = true →
      Desk.Waits ⟨1, 1⟩ kc ks (asking 12) (fun _ _ => true) w → Spec.Crowded w ∧ w.server.workers.length = 3) ∧
    (∀ as w, Desk.Dialog ⟨1, 1⟩ kc ks (asking 12) (fun _ _ => true) (deskStart 3) as w → w.client.gone = false →
      w.client.io.rxAlive = true → w.client.io.delivered = [] ∧ w.client.io.accepted ≠ asking 12) ∧
    (∃ as w, Desk.Dialog ⟨1, 1⟩ kc ks (asking 12) (fun _ _ => true) (deskStart 11) as w ∧
      w.client.io.accepted = asking 12 ∧ w.client.io.delivered.length = 12) := by
  have serves : ∀ k n, 1 ≤ n → k ≤ n + 1 →
      ∃ as w, Desk.Dialog ⟨1, 1⟩ kc ks (asking k) (fun _ _ => true) (deskStart n) as w ∧
      w.client.io.accepted = asking k ∧ w.client.io.delivered.length = k := by
    intro k n hn hk
    obtain ⟨as, w, h1, h2, k1, k2, k3⟩ := desk_settle ⟨1, 1⟩ kc ks (asking k) (fun _ _ => true) (deskStart n)
    obtain ⟨h3, sent, ⟨xs, h4, h5, _⟩, h6⟩ := C129_first (said := asking k) hn (by simp) (by simp)
      (deskStart_staffed kc ks n) (asking_ok k) (by rw [asking_requests]; simpa using hk) h1 k1 k2 k3 h2
    refine ⟨as, w, h1, h3, ?_⟩
    have h7 := h4.length_eq
    rw [asking_requests, List.length_map, List.length_replicate] at h7
    rw [h6, ← h5]
    simp [deskStart, h7]
  refine ⟨serves 4 3 (by simp) (by simp), ?_, ?_, ?_, serves 12 11 (by simp) (by simp)⟩
  · exact C129_circle (n := 3) (said := asking 12) (by simp) (by simp) (by simp) (deskStart_staffed kc ks 3) .start rfl rfl rfl
      (asking_ok 12) (by rw [asking_requests]; simp)
  · intro as w h hg hr ht hq
    exact C129_stuck (n := 3) (said := asking 12) (by simp) (by simp) (by simp) (deskStart_staffed kc ks 3) .start (asking_ok 12)
      (by rw [asking_requests]; simp) h hg hr ht hq
  · intro as w h hg hr
    exact C129_never (n := 3) (said := asking 12) (by simp) (deskStart_staffed kc ks 3) .start (asking_ok 12)
      (by rw [asking_requests]; simp) h hg hr

/-- Beside C129_served, C129_reached and C129_window: one worker, room for one byte each way, a hundred requests, of which
at most three are under way. -/
example (kc ks : Kind) : ∃ as w, Desk.Dialog ⟨1, 1⟩ kc ks (asking 100) (Spec.atMost 3 [] []) (deskStart 1) as w ∧
    w.client.io.accepted = asking 100 ∧
    ∃ sent, Spec.AnyOrder (List.replicate 100 (.buildTargetSources (.i32 0) ⟨[]⟩)) sent ∧
      w.client.io.delivered = sent.map Spec.heard := by
  obtain ⟨as, w, h1, h2, h3⟩ := C129_reached (c := ⟨1, 1⟩) (n := 1) (said := asking 100) (by simp) (by simp) (by simp)
    (deskStart_staffed kc ks 1) rfl rfl rfl (asking_ok 100)
    (atMost_wary (n := 1) (k := 3) (by simp) (by simp) 1 [] [] (asking 100))
  rw [asking_requests] at h3
  exact ⟨as, w, h1, h2, h3⟩

/-- Beside C129_rest: a hundred requests, one worker and room for one byte each way; the client does not decide whether it
sends or receives. -/
example (kc ks : Kind) {as : List Desk.Ev} {w : Desk.World} (h : Desk.Steps ⟨1, 1⟩ kc ks (deskStart 1) as w)
    (hg : w.client.gone = false) (hr : w.client.io.rxAlive = true) (ht : w.client.io.txAlive = true)
    (hacc : w.client.io.accepted = asking 100) (hq : Desk.Quiet ⟨1, 1⟩ kc ks w) : w.client.io.delivered.length = 100 := by
  obtain ⟨⟨sent, ⟨xs, h4, h5, _⟩, h6⟩, _⟩ := C129_rest (n := 1) (said := asking 100) (by simp) (by simp) (by simp)
    (deskStart_staffed kc ks 1) (asking_ok 100) h hg hr ht hacc hq
  have h7 := h4.length_eq
  rw [asking_requests, List.length_map, List.length_replicate] at h7
  rw [h6, ← h5]
  simp [deskStart, h7]

/-- and there is such a run: of a client that decides nevertheless, as in the example before. -/
example (kc ks : Kind) : ∃ as w, Desk.Steps ⟨1, 1⟩ kc ks (deskStart 1) as w ∧ w.client.gone = false ∧
    w.client.io.rxAlive = true ∧ w.client.io.txAlive = true ∧ w.client.io.accepted = asking 100 ∧
    Desk.Quiet ⟨1, 1⟩ kc ks w := by
  obtain ⟨as, w, h1, h2, k1, k2, k3⟩ := desk_settle ⟨1, 1⟩ kc ks (asking 100) (Spec.atMost 3 [] []) (deskStart 1)
  obtain ⟨h3, _⟩ := C129_window (c := ⟨1, 1⟩) (n := 1) (k := 3) (said := asking 100) (w0 := deskStart 1) (by simp) (by simp)
    (by simp) (by simp) (by simp) (deskStart_staffed kc ks 1) (asking_ok 100) h1 k1 k2 k3 h2
  refine ⟨as, w, desk_dialog h1, k1, k2, k3, h3, ?_⟩
  intro a v hs
  by_cases ha : ∃ m, a = .client (.act (.accept m))
  · exact .inl ha
  · refine .inr (h2 a v hs ?_)
    cases a with
    | server => trivial
    | client e =>
      cases e with
      | exit => trivial
      | act x =>
        cases x with
        | accept m => exact absurd ⟨m, rfl⟩ ha
        | deliver m => exact .inl h3
        | _ => trivial

/-- Beside C129_terminates: no such client goes on for ever. -/
example (c : Caps) (kc ks : Kind) (script : List Message) (sends : Policy) : ¬ ∃ f : Nat → Desk.World, ∀ n, ∃ a,
    Desk.Step c kc ks (f n) a (f (n + 1)) ∧ Desk.Chooses script sends (f n) a ∧ ¬ Desk.Leaves a := by
  rintro ⟨f, hf⟩
  have hwf := C129_terminates c kc ks script sends
  have : ∀ w, ∀ n, f n ≠ w := by
    intro w
    induction w using hwf.induction with
    | _ w ih =>
      rintro n rfl
      exact ih _ (hf n) (n + 1) rfl
  exact this _ 0 rfl

end
end Bsp
