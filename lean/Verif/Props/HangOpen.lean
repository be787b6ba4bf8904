/-
C137, continued: a client that drops its connection when two or more answers are missing.
-/
import Verif.Props.HangLast

namespace Bsp
open Frame Json Transport
open Link (Move LinkStep Side Quiet)
open Conn (Dbg reply)
open Session (Proc App onRecv onSent toSend kindOf)
open EndToEnd (World side)

section
variable [LawfulExt] [FloatText] [Dbg] {process : InitializeBuild → Option Value}
  {said : List Message} {early : List Request} {id : RequestId} {ip : InitializeBuild} {v : Value} {pre : List Message}

omit [Dbg] in
/-- A message that has been written is not empty. -/
theorem write_some (m : Message) : Frame.write m ≠ [] := by
  intro h
  have := congrArg List.length h
  simp [Frame.write, Frame.frame, utf8] at this
  exact absurd this.1 (by decide)

omit [Dbg] in
/-- What has been written carries what is heard of it. -/
theorem carries_heard (ms : List Message) (h : ∀ m ∈ ms, Spec.Sayable m) :
    Spec.Carries (ms.flatMap write) (ms.map Spec.heard) := by
  have key : ∀ (ms : List Message) bs ns, Spec.Carries bs ns → (∀ m ∈ ms, Spec.Sayable m) →
      Spec.Carries (bs ++ ms.flatMap write) (ns ++ ms.map Spec.heard) := by
    intro ms
    induction ms with
    | nil => intro bs ns hb _; simpa using hb
    | cons m ms ih =>
      intro bs ns hb h
      have := ih _ _ (carries_lib hb (h m (by simp)).carried (sayable_dec (h m (by simp)))) (fun m hm => h m (by simp [hm]))
      simpa using this
  simpa using key ms [] [] .nil h

/-- What the server does by itself changes nothing of its input. -/
theorem input_kept {k : Kind} {p q : Proc} {as : List Session.Act} (h : Session.Steps k process p as q)
    (ha : Session.Act.peer ∉ as) : q.io.arrived = p.io.arrived ∧ q.io.inEnd = p.io.inEnd := by
  induction h with
  | nil => exact ⟨rfl, rfl⟩
  | @snoc as u a w' h3 hs ih =>
    simp only [List.mem_append, List.mem_singleton, not_or] at ha
    obtain ⟨i1, i2⟩ := ih ha.1
    rw [← i1, ← i2]
    cases hs with
    | io _ hst hk =>
      cases hst with
      | arrive => simp [kindOf] at hk; exact absurd hk ha.2
      | hangUp => simp [kindOf] at hk; exact absurd hk ha.2
      | read r => cases r <;> exact ⟨rfl, rfl⟩
      | _ => exact ⟨rfl, rfl⟩
    | recv _ _ hst => cases hst; exact ⟨rfl, rfl⟩
    | send _ _ hst => cases hst; exact ⟨rfl, rfl⟩
    | _ => exact ⟨rfl, rfl⟩

/-- The server can do by itself what it does by itself. -/
theorem server_alone {kc ks : Kind} {c : Side} {p q : Proc} {as : List Session.Act}
    (h : Session.Steps ks process p as q) (ha : ∀ a ∈ as, a ≠ .peer ∧ a ≠ .timeout ∧ a ≠ .writeFails) :
    ∃ bs, EndToEnd.Steps kc ks process { client := c, server := p } bs { client := c, server := q } ∧
      ∀ b ∈ bs, b.free = false := by
  induction h with
  | nil => exact ⟨[], .nil _, by simp⟩
  | @snoc as u a w' h3 hs ih =>
    obtain ⟨bs, i1, i2⟩ := ih (fun b hb => ha b (List.mem_append_left _ hb))
    obtain ⟨a1, a2, a3⟩ := ha a (by simp)
    refine ⟨_, .snoc i1 (.server (w := { client := c, server := u }) hs (by simp [a1, a3])), ?_⟩
    intro b hb
    rcases List.mem_append.1 hb with hb | hb
    · exact i2 b hb
    · rw [List.mem_singleton.1 hb]
      cases a <;> first | rfl | exact absurd rfl a2

/-- A process that has exited does not do so again. -/
theorem exit_once {kc ks : Kind} {w u : World} {bs : List EndToEnd.Ev}
    (h : EndToEnd.Steps kc ks process w bs u) {b : Bool} (he : w.server.exit = some b) : u.server.exit = some b := by
  induction h with
  | nil => exact he
  | @snoc as u a w' h3 hs ih =>
    cases hs with
    | client => exact ih
    | server hst => cases hst <;> simp_all

omit [Dbg] in
/-- A written message is read. -/
theorem read_written {k : Kind} {m : Message} (h : Spec.Sayable m) {s : State} {rest : Bytes} (hr : s.reader = .reading)
    (hu : s.unread = write m ++ rest) : Transport.Step k s .read { s with reader := .sending (Spec.heard m), unread := rest } := by
  refine Transport.Step.read s (.item (Spec.heard m) ⟨rest, s.inEnd.getD false⟩) hr ?_
  unfold Settled
  cases he : s.inEnd with
  | some b => simp [hu, C13_heard h]
  | none =>
    intro more b
    rw [hu, List.append_assoc, C13_heard h]

/-- A client that receives the messages which are in its input. -/
theorem client_reads {kc ks : Kind} {p : Proc} (ms : List Message) (h : ∀ m ∈ ms, Spec.Sayable m)
    (hx : ∀ m ∈ ms, m ≠ .notification .exit) (s : State) (rest : Bytes) (hr : s.reader = .reading)
    (hu : s.unread = ms.flatMap write ++ rest) (ha : s.rxAlive = true) :
    ∃ bs, EndToEnd.Steps kc ks process { client := { io := s }, server := p } bs
      { client := { io := { s with unread := rest, delivered := s.delivered ++ ms.map Spec.heard } }, server := p } := by
  induction ms generalizing s with
  | nil =>
    refine ⟨[], ?_⟩
    have : { s with unread := rest, delivered := s.delivered ++ [].map Spec.heard } = s := by
      simp only [List.map_nil, List.append_nil]
      simp only [List.flatMap_nil, List.nil_append] at hu
      rw [← hu]
    rw [this]; exact .nil _
  | cons m ms ih =>
    obtain ⟨bs, hb⟩ := ih (fun m hm => h m (by simp [hm])) (fun m hm => hx m (by simp [hm]))
      { s with unread := ms.flatMap write ++ rest, delivered := s.delivered ++ [Spec.heard m] } hr rfl ha
    have hm := h m (by simp)
    have hne : Spec.heard m ≠ .notification .exit := fun e => hx m (by simp) (heard_exit e)
    have hne : afterSend (Spec.heard m) = .reading := by
      unfold afterSend
      rw [if_neg]
      cases e : Spec.heard m with
      | notification n => cases n <;> simp_all [isExit]
      | _ => simp [isExit]
    have s1 : EndToEnd.Steps kc ks process { client := { io := s }, server := p } _ _ :=
      .snoc (.snoc (.nil _) (.client (.own rfl (read_written (rest := ms.flatMap write ++ rest) hm hr (by simpa using hu))
          (by simp) (by simp) (by simp))))
        (.client (.own rfl (.deliver _ _ rfl ha) (by simp) (by simp) (by simp)))
    refine ⟨_, world_append (bs := bs) s1 ?_⟩
    simp only [hne]
    have e : s.reader = .reading := hr
    rw [← e]
    simpa using hb

/-- A server with a socket that has received a session and comes to rest after the connection has ended, in one way or
the other. -/
theorem server_after (hp : Spec.Plan process said early id ip v pre) {q : Proc} {as : List Session.Act}
    (h : Session.Steps .socket process {} as q) (hw : Session.Act.writeFails ∉ as) (hx : q.exit = none)
    (hi : q.io.inEnd = none) (ha : q.io.arrived = said.flatMap write) (broken : Bool) :
    ∃ bs r, Session.Steps .socket process { q with io := { q.io with inEnd := some broken } } bs r ∧
      (∀ a ∈ bs, a ≠ .peer ∧ a ≠ .timeout ∧ a ≠ .writeFails) ∧ r.exit = some (!broken) := by
  obtain ⟨bs, r, s1, s2, s3⟩ := C72_settles .socket process { q with io := { q.io with inEnd := some broken } }
  refine ⟨bs, r, s1, s3, ?_⟩
  have h1 : Session.Steps .socket process {} _ r := steps_append (.snoc h (.io hx (.hangUp _ broken hi) rfl)) s1
  have hw1 : Session.Act.writeFails ∉ as ++ [Session.Act.peer] ++ bs := by
    intro hm
    rcases List.mem_append.1 hm with hm | hm
    · rcases List.mem_append.1 hm with hm | hm
      · exact hw hm
      · cases List.mem_singleton.1 hm
    · exact (s3 _ hm).2.2 rfl
  obtain ⟨k1', k2'⟩ := input_kept s1 (fun hm => (s3 _ hm).1 rfl)
  have k1 : r.io.arrived = said.flatMap write := k1'.trans ha
  have k2 : r.io.inEnd = some broken := k2'
  clear k1' k2'
  have hc : Spec.Carries r.io.arrived (Spec.session early id ip pre) := by
    rw [k1, ← hp.heard]; exact carries_heard _ hp.sayable
  cases broken with
  | false =>
    exact (C74_hang_up h1 hw1 s2 k2 hc hp.refused hp.accepts (plan_pre hp).1 (plan_pre hp).2).1
  | true =>
    obtain ⟨b, hb⟩ := C108_exits h1 (by rw [k2]; simp) s2
    cases b with
    | false => exact hb
    | true =>
      exfalso
      rcases (C75_success h1 hb).2 with ⟨ms, h2⟩ | ⟨h2, _⟩
      · have h3 := C51_prefix (proc_reachable h1) [] false
        rw [List.append_nil, k1, C13_heard_stream _ hp.sayable, h2] at h3
        have : Message.notification .exit ∈ said.map Spec.heard := h3.subset (by simp)
        obtain ⟨m, hm, he⟩ := List.mem_map.1 this
        rw [heard_exit he] at hm
        exact hp.noExit hm
      · rw [k2] at h2; cases h2

/-- A client that drops its connection with more than one answer unread: the network may bring the server the end of its
input, or a broken connection. -/
theorem client_hangs {s : State} {a : Message} {rest : Bytes} (ha : Spec.Sayable a) (hr : s.reader = .reading)
    (hx : s.rxAlive = false) (ht : s.txAlive = false) (hw : s.writer = .idle) (hu : s.unread = write a ++ rest)
    (hne : rest ≠ []) {q r : Proc} (hex : q.exit = none) (hi : q.io.inEnd = none) (hq : q.io.arrived = s.out) {b : Bool}
    {fs : List Session.Act}
    (f1 : Session.Steps .socket process { q with io := { q.io with inEnd := some (!b) } } fs r)
    (f2 : ∀ a ∈ fs, a ≠ .peer ∧ a ≠ .timeout ∧ a ≠ .writeFails) (f3 : r.exit = some (!!b)) :
    ∃ bs u, EndToEnd.Steps .socket .socket process { client := { io := s }, server := q } bs u ∧
      (∀ a ∈ bs, a.free = false) ∧ EndToEnd.Quiet .socket .socket process u ∧ u.server.exit = some b := by
  have g1 : EndToEnd.Steps .socket .socket process { client := { io := s }, server := q } _ _ :=
    .snoc (.snoc (.snoc (.nil _)
    (.client (.own rfl (read_written ha hr hu) (by simp) (by simp) (by simp))))
    (.client (.own rfl (.undeliverable _ _ rfl hx) (by simp) (by simp) (by simp))))
    (.client (.own rfl (.close _ hw ht) (by simp) (by simp) (by simp)))
  have hs := Transport.Step.hangUp (k := .socket) q.io (!b) hi
  have g2 := EndToEnd.Steps.snoc g1 (.server (.io hex hs rfl) (fun _ => ⟨.hangUp (!b), rfl, by
    cases b with
    | true =>
      simp only [side, hex]
      exact .fin rfl rfl hq hs
    | false =>
      have hs := Transport.Step.hangUp (k := .socket) q.io true hi
      simp only [side, hex]
      refine .reset (x := { io := q.io }) rfl ?_ rfl ?_ hs
      · rfl
      · exact .inl hne⟩))
  obtain ⟨xs, x1, x2⟩ := server_alone (kc := .socket) f1 f2
  have g3 := world_append g2 x1
  obtain ⟨ys, u, y1, y2, y3⟩ := world_settles .socket .socket process _
  refine ⟨_, u, world_append g3 y1, ?_, y2, exit_once y1 (by rw [f3]; simp)⟩
  intro a ha
  simp only [List.mem_append, List.nil_append, List.mem_cons, List.not_mem_nil, or_false] at ha
  rcases ha with (((((rfl | rfl) | rfl) | rfl) | ha) | ha)
  · rfl
  · rfl
  · rfl
  · rfl
  · exact x2 a ha
  · exact y3 a ha

/-- C137: if two or more answers are missing when the client drops its connection, the exit code of the server is open: of
two processes connected by a socket, for every session and every such number of answers received there is a run to a
moment from which the threads and the network can lead to either exit code. -/
theorem C137_open (hp : Spec.Plan process said early id ip v pre) {n : Nat}
    (hn : n + 2 ≤ early.length + 1 + (Spec.requests pre).length) :
    ∃ as w, EndToEnd.Steps .socket .socket process {} as w ∧ w.client.gone = false ∧ w.client.io.accepted = said ∧
      w.client.io.rxAlive = false ∧ w.client.io.txAlive = false ∧ w.client.io.delivered.length = n ∧
      ∀ b, ∃ bs u, EndToEnd.Steps .socket .socket process w bs u ∧ (∀ a ∈ bs, a.free = false) ∧
        EndToEnd.Quiet .socket .socket process u ∧ u.server.exit = some b := by
  obtain ⟨as, h0⟩ := says_run .socket .socket process said
  have hne : said.flatMap write ≠ [] := by
    have : said ≠ [] := by
      rintro rfl
      have := congrArg List.length hp.heard
      simp [Spec.session] at this
    cases hs : said with
    | nil => exact absurd hs this
    | cons m ms => simp [write_some]
  have h1 := EndToEnd.Steps.snoc h0 (.server (.io rfl (.arrive _ (said.flatMap write) rfl) rfl)
    (fun _ => ⟨_, rfl, .arrive rfl hne (List.prefix_refl _) (.arrive _ _ rfl)⟩))
  obtain ⟨cs, q, s1, s2, s3⟩ := C72_settles .socket process
    { io := { arrived := said.flatMap write, unread := said.flatMap write } }
  obtain ⟨ds, d1, d2⟩ := server_alone (kc := .socket)
    (c := { io := { accepted := said, out := said.flatMap write } }) s1 s3
  have h2 := world_append h1 d1
  have hss : Session.Steps .socket process {} _ q :=
    steps_append (.snoc (.nil _) (.io rfl (.arrive _ (said.flatMap write) rfl) rfl)) s1
  have hw : Session.Act.writeFails ∉ [] ++ [Session.Act.peer] ++ cs := by
    intro hm
    rcases List.mem_append.1 hm with hm | hm
    · simp at hm
    · exact (s3 _ hm).2.2 rfl
  obtain ⟨k1, k2⟩ := input_kept s1 (fun hm => (s3 _ hm).1 rfl)
  have k1 : q.io.arrived = said.flatMap write := k1
  have k2 : q.io.inEnd = none := k2
  have hh := held hp h2 rfl (List.prefix_refl _)
  have hex : q.exit = none := hh.alive
  have out : q.io.out = (Spec.answers process (Spec.session early id ip pre)).flatMap write := by
    rcases C71_nothing_pending hss hw s2 with ⟨b, hb⟩ | ⟨_, _, h3, h4⟩
    · rw [hex] at hb; cases hb
    · have h5 := h3 _ _ [] ((List.append_nil _).symm) (by rw [k1]; exact carries_heard _ hp.sayable)
      have h6 := C51_prefix (proc_reachable hss) [] false
      rw [List.append_nil, k1, C13_heard_stream _ hp.sayable] at h6
      have h7 : q.io.delivered = said.map Spec.heard := (h5.eq_of_length (Nat.le_antisymm h5.length_le h6.length_le)).symm
      rw [h4, h7, hp.heard]
  have hans := plan_answers hp
  have hlen := (plan_served hp).2
  generalize Spec.answers process (Spec.session early id ip pre) = A at out hans hlen
  obtain ⟨A1, a, c, A2, rfl, hA1⟩ : ∃ A1 a c A2, A = A1 ++ a :: c :: A2 ∧ A1.length = n := by
    have e1 := List.take_append_drop n A
    have e2 : (A.drop n).length = A.length - n := List.length_drop
    cases e : A.drop n with
    | nil => rw [e] at e2; simp at e2; omega
    | cons a A' =>
      cases A' with
      | nil => rw [e] at e2; simp at e2; omega
      | cons c A2 => exact ⟨A.take n, a, c, A2, by rw [e] at e1; exact e1.symm, by simp; omega⟩
  have hB : (A1 ++ a :: c :: A2).flatMap write ≠ [] := by
    intro h
    simp [write_some] at h
  have h3 := EndToEnd.Steps.snoc h2 (.client (.arrive rfl hB (by simp only [side, List.nil_append]; rw [out]; exact List.prefix_refl _)
    (.arrive _ _ rfl)))
  obtain ⟨es, e1⟩ := client_reads (kc := .socket) (ks := .socket) (process := process) (p := q) A1 (fun m hm => (hans m (by simp [hm])).1)
    (fun m hm => (hans m (by simp [hm])).2)
    { accepted := said, out := said.flatMap write, arrived := [] ++ (A1 ++ a :: c :: A2).flatMap write,
      unread := [] ++ (A1 ++ a :: c :: A2).flatMap write } ((a :: c :: A2).flatMap write) rfl (by simp) rfl
  have h4 := EndToEnd.Steps.snoc (EndToEnd.Steps.snoc (world_append h3 e1)
    (.client (.own rfl (.dropRx _) (by simp) (by simp) (by simp))))
    (.client (.own rfl (.dropTx _) (by simp) (by simp) (by simp)))
  refine ⟨_, _, h4, rfl, rfl, rfl, rfl, by simp [hA1], ?_⟩
  intro b
  obtain ⟨fs, r, f1, f2, f3⟩ := server_after hp hss hw hex k2 k1 (!b)
  exact client_hangs (rest := (c :: A2).flatMap write) (hans a (by simp)).1 rfl rfl rfl rfl (by simp) (by simp [write_some])
    hex k2 k1 f1 f2 f3

end

/-! ### Concrete cases -/

section
attribute [local instance] Ext.sample FloatText.sample Dbg.sample

/-- Beside C137: the client of `samplePlan` has received the first of three answers; the server exits with or without
success. -/
example : ∃ as w, EndToEnd.Steps .socket .socket sampleHandler {} as w ∧ w.client.io.delivered.length = 1 ∧
    ∀ b, ∃ bs u, EndToEnd.Steps .socket .socket sampleHandler w bs u ∧ u.server.exit = some b := by
  obtain ⟨as, w, h, _, _, _, _, hn, hb⟩ := C137_open samplePlan (n := 1) (by decide)
  refine ⟨as, w, h, hn, fun b => ?_⟩
  obtain ⟨bs, u, h1, _, _, h2⟩ := hb b
  exact ⟨bs, u, h1, h2⟩

end
end Bsp
