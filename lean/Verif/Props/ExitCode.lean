/-
C139: what the exit status of the process tells.
-/
import Verif.Props.Outcome
import Verif.Props.Peer

namespace Bsp
open Conn Session Transport Frame

section
variable [Ext] [Dbg] {process : InitializeBuild → Option Value} [FloatText] {k : Kind}

/-! ### Specification -/

/-- The messages of a session: requests that are refused, build/initialize with params that the handler takes, initialized,
and whatever is neither shutdown nor exit. -/
def Spec.Session (process : InitializeBuild → Option Value) (ms : List Message) : Prop :=
  ∃ early id ip v pre, (∀ r ∈ early, Spec.Early r) ∧ process ip = some v ∧ Spec.NoShutdown pre ∧
    Message.notification .exit ∉ pre ∧ ms = Spec.session early id ip pre

/-- A session that has come to its end: after exit, with or without shutdown just before. -/
def Spec.Concluded (process : InitializeBuild → Option Value) (ms : List Message) : Prop :=
  ∃ ses, Spec.Session process ses ∧
    (ms = ses ++ [.notification .exit] ∨ ∃ sid, ms = ses ++ [.request (.shutdown sid), .notification .exit])

/-- Messages after which the program expects more: the first ones of a session, or a session, or one with shutdown. -/
def Spec.Expecting (process : InitializeBuild → Option Value) (ms : List Message) : Prop :=
  (∃ early : List Request, (∀ r ∈ early, Spec.Early r) ∧ ms = early.map .request) ∨
  (∃ (early : List Request) (id : RequestId) (ip : InitializeBuild) (v : Value), (∀ r ∈ early, Spec.Early r) ∧ process ip = some v ∧
    ms = early.map .request ++ [.request (.initializeBuild id ip)]) ∨
  Spec.Session process ms ∨
  ∃ ses sid, Spec.Session process ses ∧ ms = ses ++ [.request (.shutdown sid)]

/-- What the documentation says of the exit status (bsp-types/src/server.rs:44-50): once the exit notification has come,
the process exits, with success if the shutdown request has come before and with an error otherwise. -/
def Spec.ExitsAsDocumented (exit : Option Bool) (bytes : Bytes) : Prop :=
  ∀ bs rest ms, bytes = bs ++ rest → Spec.Carries bs (ms ++ [.notification .exit]) → Message.notification .exit ∉ ms →
    ((∃ sid, Message.request (.shutdown sid) ∈ ms) → exit = some true) ∧
    ((∀ sid, Message.request (.shutdown sid) ∉ ms) → exit = some false)

/-! ### What the main thread has received -/

/-- What the state of the main thread tells about the messages. -/
def FeedShape (process : InitializeBuild → Option Value) (ms : List Message) : App → Prop
  | .start => ∃ early : List Request, (∀ r ∈ early, Spec.Early r) ∧ ms = early.map .request
  | .confirming => ∃ (early : List Request) (id : RequestId) (ip : InitializeBuild) (v : Value), (∀ r ∈ early, Spec.Early r) ∧ process ip = some v ∧
      ms = early.map .request ++ [.request (.initializeBuild id ip)]
  | .idle => ∃ early id ip v pre, (∀ r ∈ early, Spec.Early r) ∧ process ip = some v ∧ Spec.NoShutdown pre ∧
      ms = Spec.session early id ip pre
  | .leaving => ∃ early id ip v pre sid, (∀ r ∈ early, Spec.Early r) ∧ process ip = some v ∧ Spec.NoShutdown pre ∧
      ms = Spec.session early id ip pre ++ [.request (.shutdown sid)]
  | .ended (.ok ()) => ∃ early id ip v pre sid rest, (∀ r ∈ early, Spec.Early r) ∧ process ip = some v ∧
      Spec.NoShutdown pre ∧ ms = Spec.session early id ip pre ++ [.request (.shutdown sid), .notification .exit] ++ rest
  | _ => True

omit [FloatText] [Dbg] in
theorem session_snoc (early : List Request) (id : RequestId) (ip : InitializeBuild) (pre : List Message) (m : Message) :
    Spec.session early id ip pre ++ [m] = Spec.session early id ip (pre ++ [m]) := by simp [Spec.session]

omit [FloatText] [Dbg] in
theorem noShutdown_snoc {pre : List Message} {m : Message} (h : Spec.NoShutdown pre) (hm : ∀ id, m ≠ .request (.shutdown id)) :
    Spec.NoShutdown (pre ++ [m]) := by
  intro id hid
  rcases List.mem_append.1 hid with h1 | h1
  · exact h id h1
  · exact hm id (List.mem_singleton.1 h1).symm

omit [FloatText] in
theorem feed_shape (n : Nat) : ∀ ms : List Message, ms.length ≤ n → FeedShape process ms (feed process .start ms).1 := by
  induction n with
  | zero =>
    intro ms h
    have : ms = [] := by cases ms <;> simp_all
    subst this
    exact ⟨[], by simp, rfl⟩
  | succ n ih =>
    intro ms h
    rcases List.eq_nil_or_concat ms with rfl | ⟨l, m, rfl⟩
    · exact ⟨[], by simp, rfl⟩
    · rw [List.concat_eq_append] at h ⊢
      have ih := ih l (by simp at h; omega)
      have hts := feed_toSend (process := process) (a := .start) rfl l
      rw [feed_snoc]
      revert ih hts
      generalize (feed process .start l).1 = a
      intro ih hts
      cases a with
      | start =>
        obtain ⟨early, he, rfl⟩ := ih
        by_cases hm : ∃ r, m = .request r
        · obtain ⟨r, rfl⟩ := hm
          by_cases hr : ∃ id ip, r = .initializeBuild id ip
          · obtain ⟨id, ip, rfl⟩ := hr
            cases hv : process ip with
            | none =>
              have : (round process .start (.request (.initializeBuild id ip))).1 = .ended .panic := by
                simp [round, onRecv, hv, toSend]
              rw [this]; trivial
            | some v =>
              have : (round process .start (.request (.initializeBuild id ip))).1 = .confirming := by
                simp [round, onRecv, hv, toSend, onSent]
              rw [this]
              exact ⟨early, id, ip, v, he, hv, rfl⟩
          · have hr' : Spec.Early r := fun i q h => hr ⟨i, q, h⟩
            have h1 : feed process .start ([r].map .request) = (.start, [r].map refusal) :=
              feed_early (by simpa using hr')
            have : (round process .start (.request r)).1 = .start := by
              have := congrArg Prod.fst h1
              simpa [feed] using this
            rw [this]
            refine ⟨early ++ [r], ?_, by simp⟩
            intro x hx
            rcases List.mem_append.1 hx with hx | hx
            · exact he x hx
            · rw [List.mem_singleton.1 hx]; exact hr'
        · have : ∃ e, (round process .start m).1 = .ended (.err e) := by
            cases m with
            | request r => exact absurd ⟨r, rfl⟩ hm
            | response r => exact ⟨_, rfl⟩
            | notification r => exact ⟨_, rfl⟩
          obtain ⟨e, this⟩ := this
          rw [this]; trivial
      | confirming =>
        obtain ⟨early, id, ip, v, he, hv, rfl⟩ := ih
        by_cases hm : m = .notification .initialized
        · subst hm
          exact ⟨early, id, ip, v, [], he, hv, (fun _ h => nomatch h), by simp [Spec.session]⟩
        · have : ∃ e, (round process .confirming m).1 = .ended (.err e) := by
            refine ⟨"expected Message::Notification, got: " ++ Dbg.msg m, ?_⟩
            have : onRecv process .confirming (some m) =
                .ended (.err ("expected Message::Notification, got: " ++ Dbg.msg m)) := by
              simp only [onRecv]
            simp [round, this, toSend]
          obtain ⟨e, this⟩ := this
          rw [this]; trivial
      | idle =>
        obtain ⟨early, id, ip, v, pre, he, hv, hn, rfl⟩ := ih
        by_cases hm : ∃ sid, m = .request (.shutdown sid)
        · obtain ⟨sid, rfl⟩ := hm
          exact ⟨early, id, ip, v, pre, sid, he, hv, hn, rfl⟩
        · have hn' := noShutdown_snoc hn (m := m) fun sid h => hm ⟨sid, h⟩
          have : (round process .idle m).1 = .idle := by
            have h1 := feed_pre (process := process) (pre := [m]) fun i h => hm ⟨i, (List.mem_singleton.1 h).symm⟩
            have := congrArg Prod.fst h1
            simpa [feed] using this
          rw [this]
          exact ⟨early, id, ip, v, pre ++ [m], he, hv, hn', session_snoc ..⟩
      | leaving =>
        obtain ⟨early, id, ip, v, pre, sid, he, hv, hn, rfl⟩ := ih
        by_cases hm : m = .notification .exit
        · subst hm
          exact ⟨early, id, ip, v, pre, sid, [], he, hv, hn, by simp⟩
        · have : ∃ e, (round process .leaving m).1 = .ended (.err e) := by
            refine ⟨"unexpected message during shutdown: " ++ Dbg.msg m, ?_⟩
            have : onRecv process .leaving (some m) =
                .ended (.err ("unexpected message during shutdown: " ++ Dbg.msg m)) := by
              simp only [onRecv]
            simp [round, this, toSend]
          obtain ⟨e, this⟩ := this
          rw [this]; trivial
      | ended r =>
        rw [round_ended]
        cases r with
        | ok u =>
          obtain ⟨early, id, ip, v, pre, sid, rest, he, hv, hn, rfl⟩ := ih
          exact ⟨early, id, ip, v, pre, sid, rest ++ [m], he, hv, hn, by simp⟩
        | err => exact True.intro
        | panic => exact True.intro
        | blocked => exact True.intro
      | _ => cases hts

omit [FloatText] in
theorem shape (ms : List Message) : FeedShape process ms (feed process .start ms).1 := feed_shape _ ms (Nat.le_refl _)

omit [FloatText] in
theorem session_feed {ms : List Message} (h : Spec.Session process ms) :
    (feed process .start ms).1 = .idle ∧ Message.notification .exit ∉ ms := by
  obtain ⟨early, id, ip, v, pre, he, hv, hn, hx, rfl⟩ := h
  rw [feed_session he hv hn]
  exact ⟨rfl, by simp [Spec.session, hx]⟩

omit [FloatText] in
theorem session_iff {ms : List Message} :
    Spec.Session process ms ↔ (feed process .start ms).1 = .idle ∧ Message.notification .exit ∉ ms := by
  refine ⟨session_feed, fun ⟨h1, h2⟩ => ?_⟩
  have h3 := shape (process := process) ms
  rw [h1] at h3
  obtain ⟨early, id, ip, v, pre, he, hv, hn, rfl⟩ := h3
  exact ⟨early, id, ip, v, pre, he, hv, hn, fun h => h2 (by simp [Spec.session, h]), rfl⟩

omit [FloatText] in
/-- After such messages, and no others, the main thread waits for more and so does the reader. -/
theorem expecting_iff {ms : List Message} :
    Spec.Expecting process ms ↔
      (feed process .start ms).1.receives = true ∧ Message.notification .exit ∉ ms := by
  constructor
  · rintro (⟨early, he, rfl⟩ | ⟨early, id, ip, v, he, hv, rfl⟩ | h | ⟨ses, sid, h, rfl⟩)
    · rw [feed_early he]
      exact ⟨rfl, by simp⟩
    · have : (feed process .start (early.map .request ++ [.request (.initializeBuild id ip)])).1 = .confirming := by
        rw [feed_snoc, feed_early he]
        simp [round, onRecv, hv, toSend, onSent]
      rw [this]
      exact ⟨rfl, by simp⟩
    · obtain ⟨h1, h2⟩ := session_feed h
      rw [h1]
      exact ⟨rfl, h2⟩
    · obtain ⟨h1, h2⟩ := session_feed h
      rw [feed_snoc, h1]
      exact ⟨rfl, by simp [h2]⟩
  · rintro ⟨h1, h2⟩
    have h3 := shape (process := process) ms
    revert h1 h3
    cases h : (feed process .start ms).1 with
    | start => exact fun _ h3 => .inl h3
    | confirming => exact fun _ h3 => .inr (.inl h3)
    | idle => exact fun _ _ => .inr (.inr (.inl (session_iff.2 ⟨h, h2⟩)))
    | leaving =>
      rintro _ ⟨early, id, ip, v, pre, sid, he, hv, hn, rfl⟩
      exact .inr (.inr (.inr ⟨_, sid, ⟨early, id, ip, v, pre, he, hv, hn,
        fun h => h2 (by simp [Spec.session, h]), rfl⟩, rfl⟩))
    | _ => intro h1; cases h1

omit [FloatText] in
/-- A prefix of messages after which more is expected. -/
theorem expecting_prefix {ms all : List Message} (h : Spec.Expecting process all) (hp : ms <+: all) :
    Spec.Expecting process ms := by
  obtain ⟨h1, h2⟩ := expecting_iff.1 h
  refine expecting_iff.2 ⟨?_, fun hx => h2 (hp.subset hx)⟩
  have h3 := feed_alive hp (process := process) fun r hr => by rw [hr] at h1; cases h1
  rcases rests (feed_toSend (process := process) (a := .start) rfl ms) with h4 | ⟨r, h4⟩
  · exact h4
  · exact absurd h4 (h3 r)

omit [FloatText] [Dbg] in
/-- All but the last message of a session that has come to its end is something after which more is expected. -/
theorem concluded_before {ms : List Message} (h : Spec.Concluded process ms) :
    ∃ l, ms = l ++ [.notification .exit] ∧ Spec.Expecting process l := by
  obtain ⟨ses, h1, rfl | ⟨sid, rfl⟩⟩ := h
  · exact ⟨ses, rfl, .inr (.inr (.inl h1))⟩
  · exact ⟨ses ++ [.request (.shutdown sid)], by simp, .inr (.inr (.inr ⟨ses, sid, h1, rfl⟩))⟩

/-! ### The input -/

omit [Dbg] in
theorem carries_first {bs : Bytes} {all : List Message} (h : Spec.Carries bs all) :
    ∀ ms t, all = ms ++ t → ∃ b1 b2, bs = b1 ++ b2 ∧ Spec.Carries b1 ms := by
  induction h with
  | nil =>
    intro ms t h
    have : ms = [] := by cases ms <;> simp_all
    subst this
    exact ⟨[], [], rfl, .nil⟩
  | @snoc bs l f cs j m h1 hf hl hj hd ih =>
    intro ms t h
    rcases List.eq_nil_or_concat t with rfl | ⟨t', x, rfl⟩
    · refine ⟨bs ++ f, [], by simp, ?_⟩
      rw [List.append_nil] at h
      rw [← h]
      exact .snoc h1 hf hl hj hd
    · rw [List.concat_eq_append, ← List.append_assoc] at h
      obtain ⟨rfl, _⟩ := List.append_inj' h rfl
      obtain ⟨b1, b2, rfl, h2⟩ := ih ms t' rfl
      exact ⟨b1, b2 ++ f, by simp, h2⟩

omit [Dbg] in
theorem readMsg_eof {a : Bytes} {b : Bool} :
    readMsg (⟨a, b⟩ : Flat) = .eof ↔ readText (⟨a, b⟩ : Flat) = .eof := by
  unfold readMsg
  cases readText (⟨a, b⟩ : Flat) with
  | item cs r => simp only; split <;> simp
  | _ => simp

omit [Dbg] in
/-- The messages before the first exit are determined by the bytes. -/
theorem carries_before {bs bs' rest rest' : Bytes} {ms ms' : List Message} (he : bs ++ rest = bs' ++ rest')
    (h : Spec.Carries bs (ms ++ [.notification .exit])) (h' : Spec.Carries bs' (ms' ++ [.notification .exit]))
    (hx : Message.notification .exit ∉ ms) (hx' : Message.notification .exit ∉ ms') : ms = ms' := by
  have h1 := readAll_carries h rest false
  have h2 := readAll_carries h' rest' false
  rw [he, h2] at h1
  have h3 := (Prod.mk.inj h1).1
  rw [List.append_assoc, List.append_assoc] at h3
  rcases List.append_eq_append_iff.1 h3 with ⟨a, h4, h5⟩ | ⟨a, h4, h5⟩
  · cases a with
    | nil => simp at h4; exact h4
    | cons x a =>
      simp only [List.cons_append, List.cons.injEq] at h5
      exact absurd (by rw [h4, ← h5.1]; simp) hx
  · cases a with
    | nil => simp at h4; exact h4.symm
    | cons x a =>
      simp only [List.cons_append, List.cons.injEq] at h5
      exact absurd (by rw [h4, ← h5.1]; simp) hx'

/-- What has been received has been carried by the first bytes. -/
theorem final_carried {w : State} {p : Proc} (hp : Final process w p) :
    ∃ bs rest, w.arrived = bs ++ rest ∧ Spec.Carries bs p.io.delivered := by
  obtain ⟨bs, rest, h1, h2⟩ := readAll_carried _ w.arrived false (Nat.le_refl _) [] [] .nil
  obtain ⟨t, ht⟩ := hp.got false
  rw [← ht] at h2
  simp only [List.nil_append] at h2
  obtain ⟨b1, b2, rfl, h3⟩ := carries_first h2 _ _ rfl
  exact ⟨b1, b2 ++ rest, by rw [h1]; simp, h3⟩

/-- The process has received the messages before which more was expected. -/
theorem final_all {w : State} {p : Proc} (hp : Final process w p) {bs rest : Bytes} {ms : List Message}
    (hb : w.arrived = bs ++ rest) (hc : Spec.Carries bs ms)
    (hms : ∀ l m, l ++ [m] <+: ms → Spec.Expecting process l) : ms <+: p.io.delivered := by
  have hra := fun b => readAll_carries hc rest b
  have hgot := hp.got false
  rw [hb, hra] at hgot
  rcases List.prefix_or_prefix_of_prefix hgot (List.prefix_append ms _) with h | h
  · obtain ⟨t, ht⟩ := h
    cases t with
    | nil => exact ⟨[], by simpa using ht.symm⟩
    | cons m t =>
      exfalso
      have hex := hms p.io.delivered m ⟨t, by rw [← ht]; simp⟩
      obtain ⟨h1, h2⟩ := expecting_iff.1 hex
      cases he : p.exit with
      | none =>
        have := ((hp.waits he).2.2.2 bs ms rest hb hc).length_le
        rw [← ht] at this
        simp at this
        omega
      | some b =>
        rcases (hp.over b he).1 with ⟨r, h3, _⟩ | ⟨_, _, h3 | ⟨stop, h3⟩⟩
        · rw [h3] at h1; cases h1
        · exact h2 h3
        · obtain ⟨b, h4, _⟩ := input_readAll h3
          rw [hb, hra] at h4
          have := congrArg List.length (Prod.mk.inj h4).1
          rw [← ht] at this
          simp at this
  · exact h

/-- After exit nothing is received. -/
theorem final_exact {w : State} {p : Proc} (hp : Final process w p) {ms : List Message} (h : ms <+: p.io.delivered)
    (hx : Message.notification .exit ∈ ms) : p.io.delivered = ms := by
  obtain ⟨t, ht⟩ := h
  cases t with
  | nil => simpa using ht.symm
  | cons m t => exact absurd hx (hp.ready ms m ⟨t, by rw [← ht]; simp⟩).2

/-! ### C139 -/

/-- C139: whatever comes in, and whatever the schedule, a process at rest has exited with success exactly if the input
begins with a session, and exit, or shutdown and exit, or if it is a session and then ends (perhaps after some header
lines), provided that no write fails and exit is not late. -/
theorem C139_success {p : Proc} {as : List Session.Act} (h : Session.Steps k process {} as p)
    (hw : Session.Act.writeFails ∉ as) (ht : Session.Act.timeout ∉ as) (hq : Quiet k process p)
    {bytes : Bytes} {ends : Option Bool} (hf : Spec.Fed p bytes ends) :
    p.exit = some true ↔
      (∃ bs rest ms, bytes = bs ++ rest ∧ Spec.Carries bs ms ∧ Spec.Concluded process ms) ∨
      (ends = some false ∧ ∃ bs hs ms, bytes = bs ++ Spec.lines hs ∧ Spec.GoodLines hs ∧ Spec.Carries bs ms ∧
        Spec.Session process ms) := by
  have hfin := final h hw ht hq hf
  constructor
  · intro hex
    obtain ⟨hov, hb⟩ := hfin.over true hex
    obtain ⟨happ, hend⟩ := hb.1 rfl
    obtain ⟨bs, rest, hbs, hc⟩ := final_carried hfin
    change bytes = bs ++ rest at hbs
    rcases hov with ⟨r, h1, h2⟩ | ⟨h1, h2, _⟩
    · rw [happ] at h2
      injection h2 with h2
      subst h2
      have h3 := shape (process := process) p.io.delivered
      rw [h1] at h3
      obtain ⟨early, id, ip, v, pre, sid, more, he, hv, hn, h4⟩ := h3
      have hd := final_exact hfin (ms := Spec.session early id ip pre ++ [.request (.shutdown sid), .notification .exit])
        ⟨more, h4.symm⟩ (by simp)
      refine .inl ⟨bs, rest, _, hbs, hc, _, ⟨early, id, ip, v, pre, he, hv, hn, ?_, rfl⟩, .inr ⟨sid, hd⟩⟩
      intro hx
      exact (hfin.ready (Spec.session early id ip pre) (.request (.shutdown sid)) ⟨[.notification .exit], by rw [hd]; simp⟩).2
        (by simp [Spec.session, hx])
    · have hidle : (feed process .start p.io.delivered).1 = .idle := by
        rw [happ] at h2
        revert h1 h2
        generalize (feed process .start p.io.delivered).1 = a
        intro h1 h2
        cases a <;> simp [App.receives] at h1 <;> simp [onRecv] at h2 ⊢
      by_cases hx : Message.notification .exit ∈ p.io.delivered
      · left
        refine ⟨bs, rest, _, hbs, hc, ?_⟩
        rcases List.eq_nil_or_concat p.io.delivered with h3 | ⟨l, m, h3⟩
        · rw [h3] at hx; cases hx
        · rw [List.concat_eq_append] at h3
          have hr := hfin.ready l m (by rw [h3]; exact List.prefix_refl _)
          have hm : m = .notification .exit := by
            rw [h3] at hx
            rcases List.mem_append.1 hx with h4 | h4
            · exact absurd h4 hr.2
            · exact (List.mem_singleton.1 h4).symm
          subst hm
          refine ⟨l, ?_, .inl h3⟩
          refine session_iff.2 ⟨?_, hr.2⟩
          have hsh := shape (process := process) p.io.delivered
          rw [hidle] at hsh
          obtain ⟨early, id, ip, v, pre, he, hv, hn, h4⟩ := hsh
          rcases List.eq_nil_or_concat pre with rfl | ⟨pre', m, rfl⟩
          · rw [h3] at h4
            have := congrArg List.getLast? h4
            simp [Spec.session] at this
          · rw [List.concat_eq_append] at h4 hn
            rw [h3, ← session_snoc] at h4
            obtain ⟨h5, _⟩ := List.append_inj' h4 rfl
            rw [h5, feed_session he hv fun i hi => hn i (List.mem_append_left _ hi)]
      · right
        have hinp := hend.resolve_left hx
        have hses : Spec.Session process p.io.delivered := session_iff.2 ⟨hidle, hx⟩
        have hends : ends = some false ∧ readAll (⟨bytes, false⟩ : Flat) = (p.io.delivered, .eof) := by
          have tail : ∀ b, readAll (⟨bytes, b⟩ : Flat) = (p.io.delivered, .eof) → b = false := by
            intro b hb'
            rw [hbs, readAll_carries hc] at hb'
            have := (Prod.mk.inj hb').1
            have h4 : (readAll (⟨rest, b⟩ : Flat)).1 = [] := by simpa using this
            have h5 := (Prod.mk.inj hb').2
            rw [readAll_eq] at h4 h5
            have : readText (⟨rest, b⟩ : Flat) = .eof := by
              cases h6 : readMsg (⟨rest, b⟩ : Flat) with
              | eof => exact readMsg_eof.1 h6
              | item m r => rw [h6] at h4; cases h4
              | _ => rw [h6] at h5; cases h5
            exact ((C07_clean_end rest b).1 this).1
          unfold Spec.Input at hinp
          cases ends with
          | none =>
            have := tail true (by simpa [Spec.stream] using hinp [] true)
            cases this
          | some b =>
            have := tail b hinp
            subst this
            exact ⟨rfl, hinp⟩
        refine ⟨hends.1, bs, ?_⟩
        have h4 := hends.2
        rw [hbs, readAll_carries hc] at h4
        have h5 : (readAll (⟨rest, false⟩ : Flat)).1 = [] := by simpa using (Prod.mk.inj h4).1
        have h6 := (Prod.mk.inj h4).2
        rw [readAll_eq] at h5 h6
        have : readText (⟨rest, false⟩ : Flat) = .eof := by
          cases h7 : readMsg (⟨rest, false⟩ : Flat) with
          | eof => exact readMsg_eof.1 h7
          | item m r => rw [h7] at h5; cases h5
          | _ => rw [h7] at h6; cases h6
        obtain ⟨_, hs, hg, rfl⟩ := (C07_clean_end rest false).1 this
        exact ⟨hs, _, hbs, hg, hc, hses⟩
  · rintro (⟨bs, rest, ms, hb, hc, hcon⟩ | ⟨rfl, bs, hs, ms, hb, hg, hc, hses⟩)
    · obtain ⟨l, rfl, hl⟩ := concluded_before hcon
      have hd := final_exact hfin (final_all hfin hb hc (by
        intro l' m hp
        obtain ⟨t, ht⟩ := hp
        rcases List.eq_nil_or_concat t with rfl | ⟨t', x, rfl⟩
        · rw [List.append_nil] at ht
          obtain ⟨rfl, _⟩ := List.append_inj' ht rfl
          exact hl
        · rw [List.concat_eq_append, ← List.append_assoc] at ht
          obtain ⟨h1, _⟩ := List.append_inj' ht rfl
          exact expecting_prefix hl ⟨m :: t', by rw [← h1]; simp⟩)) (by simp)
      have hx : Message.notification .exit ∈ p.io.delivered := by rw [hd]; simp
      cases hex : p.exit with
      | none => exact absurd hx (hfin.waits hex).2.1
      | some b =>
        obtain ⟨hov, hb⟩ := hfin.over b hex
        have happ : p.app = .ended (.ok ()) := by
          obtain ⟨ses, h1, h2⟩ := hcon
          rw [hd] at hov
          rcases h2 with h2 | ⟨sid, h2⟩
          · rw [h2, feed_snoc, (session_feed h1).1] at hov
            rcases hov with ⟨r, h3, _⟩ | ⟨_, h3, _⟩
            · cases h3
            · exact h3
          · rw [h2, feed_append, (session_feed h1).1] at hov
            rcases hov with ⟨r, h3, h4⟩ | ⟨h3, _⟩
            · rw [h4, ← h3]; rfl
            · cases h3
        rw [hb.2 ⟨happ, .inl hx⟩]
    · have hra := readAll_carries hc (Spec.lines hs) false
      have htail : readAll (⟨Spec.lines hs, false⟩ : Flat) = ([], .eof) := by
        rw [readAll_eq, readMsg_eof.2 ((C07_clean_end _ _).2 ⟨rfl, hs, hg, rfl⟩)]
      rw [htail, List.append_nil] at hra
      have h1 := final_all hfin hb hc (by
        intro l m hp
        exact expecting_prefix (.inr (.inr (.inl hses))) ((List.prefix_append l [m]).trans hp))
      have h2 := hfin.got false
      change p.io.delivered <+: (readAll (⟨bytes, false⟩ : Flat)).1 at h2
      rw [hb, hra] at h2
      have hd : p.io.delivered = ms := h2.eq_of_length_le h1.length_le
      have hinp : Spec.Input (Spec.stream bytes (some false)) p.io.delivered .eof := by
        rw [hd, hb]; exact hra
      cases hex : p.exit with
      | none => exact absurd hinp ((hfin.waits hex).2.2.1 .eof)
      | some b =>
        obtain ⟨hov, hb⟩ := hfin.over b hex
        have happ : p.app = .ended (.ok ()) := by
          rw [hd, (session_feed hses).1] at hov
          rcases hov with ⟨r, h3, _⟩ | ⟨_, h3, _⟩
          · cases h3
          · exact h3
        rw [hb.2 ⟨happ, .inr hinp⟩]

/-- C139: success can be trusted whatever goes wrong: if the process has exited with success, at whatever moment, with
writes that fail or not and exit late or not, what had come in by then is such an input. -/
theorem C139_trusted {p : Proc} {as : List Session.Act} (h : Session.Steps k process {} as p) (he : p.exit = some true) :
    (∃ bs rest ms, p.io.arrived = bs ++ rest ∧ Spec.Carries bs ms ∧ Spec.Concluded process ms) ∨
    (p.io.inEnd = some false ∧ ∃ bs hs ms, p.io.arrived = bs ++ Spec.lines hs ∧ Spec.GoodLines hs ∧ Spec.Carries bs ms ∧
      Spec.Session process ms) := by
  have hw : Session.Act.writeFails ∉ as := fun hw => (C82_write_fails h hw).1 he
  have ht : Session.Act.timeout ∉ as := fun ht => (C81_late h ht).1 he
  have hq : Quiet k process p := by
    intro a q hs
    cases hs <;> simp_all
  exact (C139_success h hw ht hq (.inl ⟨rfl, rfl⟩)).1 he

/-- C139: and it has not exited exactly if the input is open, and is messages after which the program expects more and
part of a frame.  In all other cases it has exited with an error. -/
theorem C139_waits {p : Proc} {as : List Session.Act} (h : Session.Steps k process {} as p)
    (hw : Session.Act.writeFails ∉ as) (ht : Session.Act.timeout ∉ as) (hq : Quiet k process p)
    {bytes : Bytes} {ends : Option Bool} (hf : Spec.Fed p bytes ends) :
    p.exit = none ↔ ends = none ∧
      ∃ bs rest ms, bytes = bs ++ rest ∧ Spec.Unfinished rest ∧ Spec.Carries bs ms ∧ Spec.Expecting process ms := by
  have hfin := final h hw ht hq hf
  constructor
  · intro hex
    obtain ⟨h1, h2, h3, h4⟩ := hfin.waits hex
    have hends : ends = none := by
      rcases hf with ⟨_, rfl⟩ | ⟨hf, _⟩
      · rcases rests_or_exited h hq with ⟨b, hb⟩ | ⟨_, hb⟩
        · rw [hex] at hb; cases hb
        · exact hb
      · exact absurd hex hf
    subst hends
    obtain ⟨bs, rest, hb, hc⟩ := final_carried hfin
    change bytes = bs ++ rest at hb
    refine ⟨rfl, bs, rest, _, hb, ?_, hc, expecting_iff.2 ⟨h1, h2⟩⟩
    apply Classical.byContradiction
    intro hu
    have hne : readMsg (⟨rest, true⟩ : Flat) ≠ .ioError := fun h => hu (unfinished_iff.1 (readMsg_ioError.1 h))
    have hnot : ∀ m r, readMsg (⟨rest, true⟩ : Flat) ≠ .item m r := by
      rintro m ⟨r, b⟩ hm
      obtain ⟨_, f, cs, j, hfr, hl, hj, hd, rfl⟩ := readMsg_item_iff.1 hm
      have := (h4 (bs ++ f) _ r (by simp [Spec.stream, hb]) (.snoc hc hfr hl hj hd)).length_le
      simp at this
      omega
    have hfol := fun more b => readMsg_followed hne more b
    refine h3 (readAll (⟨rest, true⟩ : Flat)).2 ?_
    intro more b
    change readAll (⟨bytes ++ more, b⟩ : Flat) = _
    rw [hb, List.append_assoc, readAll_carries hc, readAll_eq (⟨rest ++ more, b⟩ : Flat), hfol more b,
      readAll_eq (⟨rest, true⟩ : Flat)]
    cases h5 : readMsg (⟨rest, true⟩ : Flat) with
    | item m r => exact absurd h5 (hnot m r)
    | _ => simp [Spec.followed]
  · rintro ⟨rfl, bs, rest, ms, hb, hu, hc, he⟩
    have hio := readMsg_ioError.2 (unfinished_iff.2 hu)
    have hra : readAll (⟨bytes, true⟩ : Flat) = (ms, .ioError) := by
      rw [hb, readAll_carries hc, readAll_eq (⟨rest, true⟩ : Flat), hio]
      simp
    have hgot := hfin.got true
    change p.io.delivered <+: (readAll (⟨bytes, true⟩ : Flat)).1 at hgot
    rw [hra] at hgot
    obtain ⟨h1, h2⟩ := expecting_iff.1 (expecting_prefix he hgot)
    cases hex : p.exit with
    | none => rfl
    | some b =>
      exfalso
      rcases (hfin.over b hex).1 with ⟨r, h3, _⟩ | ⟨_, _, h3 | ⟨stop, h3⟩⟩
      · rw [h3] at h1; cases h1
      · exact h2 h3
      · have h4 : readAll (⟨bytes, true⟩ : Flat) = (p.io.delivered, stop) := by
          simpa [Spec.stream] using h3 [] true
        have h5 : readAll (⟨bytes, false⟩ : Flat) = (p.io.delivered, stop) := by
          simpa [Spec.stream] using h3 [] false
        rw [hra] at h4
        obtain ⟨h6, rfl⟩ := Prod.mk.inj h4
        rw [hb, readAll_carries hc, ← h6] at h5
        have h7 := (Prod.mk.inj h5).2
        have h8 : (readAll (⟨rest, false⟩ : Flat)).1 = [] := by simpa using (Prod.mk.inj h5).1
        rw [readAll_eq] at h7 h8
        cases h9 : readMsg (⟨rest, false⟩ : Flat) with
        | ioError => exact unbroken _ h9
        | item m r => rw [h9] at h8; cases h8
        | _ => rw [h9] at h7; cases h7

/-- C139: once exit has come the process exits, and with success exactly if the messages before it are a session, or a
session and shutdown. -/
theorem C139_exit {p : Proc} {as : List Session.Act} (h : Session.Steps k process {} as p)
    (hw : Session.Act.writeFails ∉ as) (ht : Session.Act.timeout ∉ as) (hq : Quiet k process p)
    {bytes : Bytes} {ends : Option Bool} (hf : Spec.Fed p bytes ends)
    {bs rest : Bytes} {ms : List Message} (hb : bytes = bs ++ rest)
    (hc : Spec.Carries bs (ms ++ [.notification .exit])) (hx : Message.notification .exit ∉ ms) :
    p.exit ≠ none ∧ (p.exit = some true ↔ Spec.Session process ms ∨
      ∃ ses sid, Spec.Session process ses ∧ ms = ses ++ [.request (.shutdown sid)]) := by
  have hs := C139_success h hw ht hq hf
  have hw' := C139_waits h hw ht hq hf
  have hra := fun b => readAll_carries hc rest b
  -- the process has exited
  have hne : p.exit ≠ none := by
    intro hn
    obtain ⟨_, bs', rest', ms', hb', hu, hc', he⟩ := hw'.1 hn
    have h1 := readAll_carries hc' rest' true
    rw [← hb', hb, hra, readAll_eq (⟨rest', true⟩ : Flat), readMsg_ioError.2 (unfinished_iff.2 hu)] at h1
    have h2 := (Prod.mk.inj h1).1
    rw [List.append_nil] at h2
    exact (expecting_iff.1 he).2 (by rw [← h2]; simp)
  -- with success exactly if the messages before exit are a session, perhaps with shutdown
  have key : p.exit = some true ↔ Spec.Session process ms ∨
      ∃ ses sid, Spec.Session process ses ∧ ms = ses ++ [.request (.shutdown sid)] := by
    rw [hs]
    constructor
    · rintro (⟨bs', rest', ms', hb', hc', ses, h1, h2⟩ | ⟨_, bs', hl, ms', hb', hg, hc', h1⟩)
      · have hsx := (session_feed h1).2
        rcases h2 with rfl | ⟨sid, rfl⟩
        · rw [carries_before (by rw [← hb, hb']) hc hc' hx hsx]
          exact .inl h1
        · refine .inr ⟨ses, sid, h1, carries_before (bs' := bs') (rest' := rest') (by rw [← hb, hb']) hc (ms' := ses ++ [.request (.shutdown sid)])
            (by simpa using hc') hx (by simp [hsx])⟩
      · have h3 := readAll_carries hc' (Spec.lines hl) false
        rw [← hb', hb, hra, readAll_eq (⟨Spec.lines hl, false⟩ : Flat),
          readMsg_eof.2 ((C07_clean_end _ _).2 ⟨rfl, hl, hg, rfl⟩)] at h3
        have h4 := (Prod.mk.inj h3).1
        rw [List.append_nil] at h4
        exact absurd (by rw [← h4]; simp) (session_feed h1).2
    · rintro (h1 | ⟨ses, sid, h1, rfl⟩)
      · exact .inl ⟨bs, rest, _, hb, hc, ms, h1, .inl rfl⟩
      · exact .inl ⟨bs, rest, _, hb, hc, ses, h1, .inr ⟨sid, by simp⟩⟩
  exact ⟨hne, key⟩

/-- C139, what the documentation says of the exit status, and what is true of it: it holds exactly if the messages before
exit are a session with shutdown at its end, or if they are a session and shutdown is among them (it was refused, before
build/initialize), or neither.  Missing: a session without shutdown, which succeeds, and messages with shutdown among them
that are no session and not one with shutdown at its end, which fail. -/
theorem C139_documented_partial {p : Proc} {as : List Session.Act} (h : Session.Steps k process {} as p)
    (hw : Session.Act.writeFails ∉ as) (ht : Session.Act.timeout ∉ as) (hq : Quiet k process p)
    {bytes : Bytes} {ends : Option Bool} (hf : Spec.Fed p bytes ends)
    {bs rest : Bytes} {ms : List Message} (hb : bytes = bs ++ rest)
    (hc : Spec.Carries bs (ms ++ [.notification .exit])) (hx : Message.notification .exit ∉ ms) :
    Spec.ExitsAsDocumented p.exit bytes ↔
      (∃ ses sid, Spec.Session process ses ∧ ms = ses ++ [.request (.shutdown sid)]) ∨
      (Spec.Session process ms ↔ ∃ sid, Message.request (.shutdown sid) ∈ ms) := by
  obtain ⟨hne, key⟩ := C139_exit h hw ht hq hf hb hc hx
  constructor
  · intro hdoc
    obtain ⟨d1, d2⟩ := hdoc bs rest ms hb hc hx
    by_cases hl : ∃ ses sid, Spec.Session process ses ∧ ms = ses ++ [.request (.shutdown sid)]
    · exact .inl hl
    · refine .inr ⟨fun h1 => ?_, fun h1 => (key.1 (d1 h1)).resolve_right hl⟩
      apply Classical.byContradiction
      intro hsd
      have h2 := d2 fun sid h => hsd ⟨sid, h⟩
      rw [key.2 (.inl h1)] at h2
      cases h2
  · intro hcase bs' rest' ms' hb' hc' hx'
    have hms := carries_before (by rw [← hb, hb']) hc hc' hx hx'
    subst hms
    rcases hcase with h1 | h1
    · refine ⟨fun _ => key.2 (.inr h1), fun hn => ?_⟩
      obtain ⟨ses, sid, _, rfl⟩ := h1
      exact absurd (by simp) (hn sid)
    · refine ⟨fun h2 => key.2 (.inl (h1.2 h2)), fun hn => ?_⟩
      cases hex : p.exit with
      | none => exact absurd hex hne
      | some b =>
        cases b with
        | false => rfl
        | true =>
          rcases key.1 hex with h2 | ⟨ses, sid, _, rfl⟩
          · obtain ⟨sid, h3⟩ := h1.1 h2
            exact absurd h3 (hn sid)
          · exact absurd (by simp) (hn sid)

/-- C139, the documentation is wrong in both directions: exit after a session without shutdown makes the process exit with
success, and exit after a session, shutdown and any other messages makes it exit with an error. -/
theorem C139_violated {p : Proc} {as : List Session.Act} (h : Session.Steps k process {} as p)
    (hw : Session.Act.writeFails ∉ as) (ht : Session.Act.timeout ∉ as) (hq : Quiet k process p)
    {bytes : Bytes} {ends : Option Bool} (hf : Spec.Fed p bytes ends)
    {bs rest : Bytes} {ms : List Message} (hb : bytes = bs ++ rest)
    (hc : Spec.Carries bs (ms ++ [.notification .exit])) (hx : Message.notification .exit ∉ ms) :
    (Spec.Session process ms → Spec.NoShutdown ms → p.exit = some true ∧ ¬ Spec.ExitsAsDocumented p.exit bytes) ∧
    (∀ ses sid m more, Spec.Session process ses → ms = ses ++ .request (.shutdown sid) :: m :: more →
      p.exit = some false ∧ ¬ Spec.ExitsAsDocumented p.exit bytes) := by
  obtain ⟨hne, key⟩ := C139_exit h hw ht hq hf hb hc hx
  constructor
  · intro h1 h2
    have h3 := key.2 (.inl h1)
    refine ⟨h3, fun hdoc => ?_⟩
    rw [(hdoc bs rest ms hb hc hx).2 h2] at h3
    cases h3
  · rintro ses sid m more h1 rfl
    have hm : m ≠ .notification .exit := fun h => hx (by simp [h])
    have hfeed : ∃ e, (feed process .start (ses ++ .request (.shutdown sid) :: m :: more)).1 = .ended (.err e) := by
      have h2 : (feed process .start (ses ++ [.request (.shutdown sid)] ++ [m])).1 =
          .ended (.err ("unexpected message during shutdown: " ++ Dbg.msg m)) := by
        rw [feed_snoc, feed_snoc, (session_feed h1).1]
        have h3 : (round process .idle (.request (.shutdown sid))).1 = .leaving := rfl
        have h4 : onRecv process .leaving (some m) =
            .ended (.err ("unexpected message during shutdown: " ++ Dbg.msg m)) := by
          simp only [onRecv]
        simp only [h3]
        simp [round, h4, toSend]
      refine ⟨"unexpected message during shutdown: " ++ Dbg.msg m, ?_⟩
      rw [show ses ++ .request (.shutdown sid) :: m :: more = ses ++ [.request (.shutdown sid)] ++ [m] ++ more by simp,
        feed_append, h2]
      clear hc hx key
      induction more with
      | nil => rfl
      | cons x more ih => simp only [feed, round_ended]; exact ih
    obtain ⟨e, hfeed⟩ := hfeed
    have hfail : p.exit = some false := by
      cases hex : p.exit with
      | none => exact absurd hex hne
      | some b =>
        cases b with
        | false => rfl
        | true =>
          exfalso
          rcases key.1 hex with h2 | ⟨ses', sid', h2, h3⟩
          · rw [(session_feed h2).1] at hfeed; cases hfeed
          · rw [h3, feed_snoc, (session_feed h2).1] at hfeed; cases hfeed
    refine ⟨hfail, fun hdoc => ?_⟩
    have h2 := (hdoc bs rest _ hb hc hx).1 ⟨sid, by simp⟩
    rw [hfail] at h2
    cases h2

end

section
attribute [local instance] Ext.sample FloatText.sample Dbg.sample

theorem sampleTalk_session : Spec.Session sampleHandler (sampleTalk.map (·.2)) :=
  ⟨[.workspaceReload (.str "a")], .i32 1, sampleInit, .ofJson (.str "c"),
    [.request (.workspaceBuildTargets (.i32 2)), .notification .initialized], by simp [Spec.Early], rfl,
    by simp [Spec.NoShutdown], by simp, rfl⟩

/-- Beside C139_success: the sample conversation, and the input ends. -/
example (k : Kind) : ∃ as p, Session.Steps k sampleHandler {} as p ∧ Quiet k sampleHandler p ∧ p.exit = some true := by
  obtain ⟨as, p, h1, h2, h3, h4, h5⟩ := C80_exists k sampleHandler (framed sampleTalk ++ Spec.lines []) (some false)
  exact ⟨as, p, h1, h4, (C139_success h1 h2 h3 h4 h5).2 (.inr ⟨rfl, _, [], _, rfl, by simp [Spec.GoodLines],
    sampleTalk_carries.1, sampleTalk_session⟩)⟩

/-- Beside C139_trusted: the sample conversation, shutdown and exit. -/
example (k : Kind) : ∃ as p, Session.Steps k sampleHandler {} as p ∧ p.exit = some true ∧
    ((∃ bs rest ms, p.io.arrived = bs ++ rest ∧ Spec.Carries bs ms ∧ Spec.Concluded sampleHandler ms) ∨
    (p.io.inEnd = some false ∧ ∃ bs hs ms, p.io.arrived = bs ++ Spec.lines hs ∧ Spec.GoodLines hs ∧ Spec.Carries bs ms ∧
      Spec.Session sampleHandler ms)) := by
  obtain ⟨as, p, h1, h2, h3, h4, h5⟩ := C80_exists k sampleHandler (framed (sampleTalk ++ sampleLeave)) none
  have h6 := (C139_success h1 h2 h3 h4 h5).2 (.inl ⟨_, [], _, (List.append_nil _).symm, sampleTalk_carries.2, _,
    sampleTalk_session, .inr ⟨.i32 3, rfl⟩⟩)
  exact ⟨as, p, h1, h6, C139_trusted h1 h6⟩

/-- Beside C139_waits: the sample conversation, and the input stays open. -/
example (k : Kind) : ∃ as p, Session.Steps k sampleHandler {} as p ∧ Quiet k sampleHandler p ∧ p.exit = none := by
  obtain ⟨as, p, h1, h2, h3, h4, h5⟩ := C80_exists k sampleHandler (framed sampleTalk) none
  exact ⟨as, p, h1, h4, (C139_waits h1 h2 h3 h4 h5).2 ⟨rfl, _, [], _, (List.append_nil _).symm,
    unfinished_iff.1 (by decide +kernel), sampleTalk_carries.1, .inr (.inr (.inl sampleTalk_session))⟩⟩

/-- Beside C139_exit, C139_violated: the sample conversation without shutdown and exit; and with shutdown, a request and
exit. -/
example (k : Kind) :
    (∃ as p, Session.Steps k sampleHandler {} as p ∧ Quiet k sampleHandler p ∧ p.exit = some true ∧
      ¬ Spec.ExitsAsDocumented p.exit (framed (sampleTalk ++ [sampleLeave[1]]))) ∧
    (∃ as p, Session.Steps k sampleHandler {} as p ∧ Quiet k sampleHandler p ∧ p.exit = some false ∧
      ¬ Spec.ExitsAsDocumented p.exit (framed (sampleTalk ++ [sampleLeave[0], sampleTalk[0], sampleLeave[1]]))) := by
  constructor
  · obtain ⟨as, p, h1, h2, h3, h4, h5⟩ := C80_exists k sampleHandler (framed (sampleTalk ++ [sampleLeave[1]])) none
    have hc : Spec.Carries (framed (sampleTalk ++ [sampleLeave[1]]))
        (sampleTalk.map (·.2) ++ [.notification .exit]) := by
      have := carries_framed (js := sampleTalk ++ [sampleLeave[1]]) fun x hx => sampleTalk_ok x (by
        simp [sampleTalk, sampleLeave] at hx ⊢; grind)
      simpa [sampleLeave] using this
    exact ⟨as, p, h1, h4, (C139_violated h1 h2 h3 h4 h5 (List.append_nil _).symm hc
      (session_feed sampleTalk_session).2).1 sampleTalk_session (by simp [Spec.NoShutdown, sampleTalk])⟩
  · obtain ⟨as, p, h1, h2, h3, h4, h5⟩ := C80_exists k sampleHandler
      (framed (sampleTalk ++ [sampleLeave[0], sampleTalk[0], sampleLeave[1]])) none
    have hc : Spec.Carries (framed (sampleTalk ++ [sampleLeave[0], sampleTalk[0], sampleLeave[1]]))
        ((sampleTalk.map (·.2) ++ .request (.shutdown (.i32 3)) :: .request (.workspaceReload (.str "a")) :: []) ++
          [.notification .exit]) := by
      have := carries_framed (js := sampleTalk ++ [sampleLeave[0], sampleTalk[0], sampleLeave[1]]) fun x hx =>
        sampleTalk_ok x (by simp [sampleTalk, sampleLeave] at hx ⊢; grind)
      simpa [sampleLeave, sampleTalk] using this
    exact ⟨as, p, h1, h4, (C139_violated h1 h2 h3 h4 h5 (List.append_nil _).symm hc (by simp [sampleTalk])).2 _ _ _ _
      sampleTalk_session rfl⟩

/-- Beside C139_documented_partial: the sample conversation, shutdown and exit. -/
example (k : Kind) : ∃ as p, Session.Steps k sampleHandler {} as p ∧ Quiet k sampleHandler p ∧
    Spec.ExitsAsDocumented p.exit (framed (sampleTalk ++ sampleLeave)) := by
  obtain ⟨as, p, h1, h2, h3, h4, h5⟩ := C80_exists k sampleHandler (framed (sampleTalk ++ sampleLeave)) none
  have hc : Spec.Carries (framed (sampleTalk ++ sampleLeave))
      ((sampleTalk.map (·.2) ++ [.request (.shutdown (.i32 3))]) ++ [.notification .exit]) := by
    simpa [sampleLeave] using sampleTalk_carries.2
  exact ⟨as, p, h1, h4, (C139_documented_partial h1 h2 h3 h4 h5 (List.append_nil _).symm hc (by simp [sampleTalk])).2
    (.inl ⟨_, _, sampleTalk_session, rfl⟩)⟩

end
end Bsp
