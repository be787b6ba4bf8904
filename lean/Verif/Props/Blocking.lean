/-
C78: when a read returns.  The reader thread of the model takes a message when the result of `Message::read`
no longer depends on bytes to come.  Here: that is when `Message::read`, run on the bytes that have arrived, gets by
without asking for a byte beyond them.
-/
import Verif.Props.Peer

namespace Bsp
open Frame Transport

namespace Spec

/-- The result of a read with the same bytes used, when more bytes follow. -/
def followed (more : Bytes) (b : Bool) : Res Flat α → Res Flat α
  | .item a rest => .item a ⟨rest.bytes ++ more, b⟩
  | .eof => .eof
  | .invalidData => .invalidData
  | .unexpectedEof => .unexpectedEof
  | .ioError => .ioError
  | .panic => .panic

end Spec

theorem headers_followed : ∀ (n : Nat) (a : Bytes), a.length ≤ n → ∀ (size : Option Nat),
    headers size (⟨a, true⟩ : Flat) ≠ .ioError → ∀ more b,
      headers size (⟨a ++ more, b⟩ : Flat) = Spec.followed more b (headers size (⟨a, true⟩ : Flat)) := by
  intro n
  induction n with
  | zero =>
    intro a ha size h
    have : a = [] := by cases a <;> simp_all
    subst this
    rw [headers_end size (by simp)] at h
    simp at h
  | succ n ih =>
    intro a ha size h more b
    cases hs : splitLine a with
    | none =>
      rw [headers_end size (splitLine_none.1 hs)] at h
      simp at h
    | some p =>
      obtain ⟨l, r⟩ := p
      obtain ⟨l', h1, h2⟩ : ∃ l', (10 : UInt8) ∉ l' ∧ a = l' ++ 10 :: r := by
        obtain ⟨h1, l', rfl, h3⟩ := splitLine_some hs
        exact ⟨l', h3, by rw [h1]; simp⟩
      subst h2
      have hr : r.length ≤ n := by simp at ha; omega
      rw [List.append_assoc, List.cons_append, headers_line size h1, headers_line size h1]
      rw [headers_line size h1] at h
      cases h3 : fromUtf8 (l' ++ [10]) with
      | none => rfl
      | some line =>
        simp only [h3] at h ⊢
        cases h4 : stripCrlf line with
        | none => rfl
        | some x =>
          simp only [h4] at h ⊢
          cases x with
          | nil => cases size <;> rfl
          | cons c x =>
            simp only at h ⊢
            cases h5 : splitSep (c :: x) with
            | none => rfl
            | some nv =>
              obtain ⟨name, value⟩ := nv
              simp only [h5] at h ⊢
              by_cases h6 : name = contentLength
              · simp only [if_pos h6] at h ⊢
                cases h7 : parseUsize value with
                | none => rfl
                | some m =>
                  simp only [h7] at h ⊢
                  exact ih r hr _ h more b
              · simp only [if_neg h6] at h ⊢
                exact ih r hr _ h more b

theorem headers_broken : ∀ (n : Nat) (a : Bytes), a.length ≤ n → ∀ (size : Option Nat) (m : Nat) (r : Flat),
    headers size (⟨a, true⟩ : Flat) = .item m r → r.broken = true := by
  intro n
  induction n with
  | zero =>
    intro a ha size m r h
    have : a = [] := by cases a <;> simp_all
    subst this
    rw [headers_end size (by simp)] at h
    simp at h
  | succ n ih =>
    intro a ha size m r' h
    cases hs : splitLine a with
    | none =>
      rw [headers_end size (splitLine_none.1 hs)] at h
      simp at h
    | some p =>
      obtain ⟨l, r⟩ := p
      obtain ⟨l', h1, h2⟩ : ∃ l', (10 : UInt8) ∉ l' ∧ a = l' ++ 10 :: r := by
        obtain ⟨h1, l', rfl, h3⟩ := splitLine_some hs
        exact ⟨l', h3, by rw [h1]; simp⟩
      subst h2
      have hr : r.length ≤ n := by simp at ha; omega
      rw [headers_line size h1] at h
      split at h
      · cases h
      · split at h
        · cases h
        · split at h
          · cases h
          · cases h; rfl
        · split at h
          · cases h
          · split at h
            · split at h
              · cases h
              · exact ih r hr _ _ _ h
            · exact ih r hr _ _ _ h

theorem readText_followed {a : Bytes} (h : readText (⟨a, true⟩ : Flat) ≠ .ioError) (more : Bytes) (b : Bool) :
    readText (⟨a ++ more, b⟩ : Flat) = Spec.followed more b (readText (⟨a, true⟩ : Flat)) := by
  rw [readText_eq] at h ⊢
  rw [readText_eq (⟨a, true⟩ : Flat)]
  have hh : headers none (⟨a, true⟩ : Flat) ≠ .ioError := by
    intro h1; rw [h1] at h; exact h rfl
  rw [headers_followed _ a (Nat.le_refl _) none hh more b]
  cases h1 : headers none (⟨a, true⟩ : Flat) with
  | item n r =>
    have hb := headers_broken _ a (Nat.le_refl _) none n r h1
    simp only [h1, Spec.followed] at h ⊢
    by_cases h2 : isizeMax < n
    · simp [h2]
    · simp only [h2, if_false] at h ⊢
      by_cases h3 : n ≤ r.bytes.length
      · have h4 : n ≤ (r.bytes ++ more).length := by simp; omega
        simp only [h3, h4, if_true, List.take_append_of_le_length h3, List.drop_append_of_le_length h3]
        cases fromUtf8 (r.bytes.take n) <;> rfl
      · simp [h3, hb] at h
  | _ => rfl

section
variable [Ext] [FloatText]

theorem readMsg_followed {a : Bytes} (h : readMsg (⟨a, true⟩ : Flat) ≠ .ioError) (more : Bytes) (b : Bool) :
    readMsg (⟨a ++ more, b⟩ : Flat) = Spec.followed more b (readMsg (⟨a, true⟩ : Flat)) := by
  unfold readMsg at h ⊢
  have hh : readText (⟨a, true⟩ : Flat) ≠ .ioError := by
    intro h1; rw [h1] at h; exact h rfl
  rw [readText_followed hh more b]
  cases h1 : readText (⟨a, true⟩ : Flat) with
  | item cs r =>
    simp only [Spec.followed]
    cases (Text.parse cs).bind Message.dec <;> rfl
  | _ => rfl

/-- Bytes of a frame that is not there in full: header lines and part of a line, or a header block and too few bytes
for the length that it declares. -/
def Spec.Unfinished (a : Bytes) : Prop :=
  (∃ hs t, Spec.GoodLines hs ∧ (10 : UInt8) ∉ t ∧ a = Spec.lines hs ++ t) ∨
  (∃ hs n t, Spec.GoodLines hs ∧ Spec.Declares hs n ∧ n ≤ 2 ^ 63 - 1 ∧ t.length < n ∧
    a = Spec.lines hs ++ Spec.blank ++ t)

omit [Ext] [FloatText] in
theorem unfinished_iff {a : Bytes} : readText (⟨a, true⟩ : Flat) = .ioError ↔ Spec.Unfinished a := by
  constructor
  · intro h
    obtain ⟨hs, t, hg, rfl, hc⟩ := stream_cases a
    rcases hc with ⟨r, rfl⟩ | ht | ⟨l, r, rfl, hl⟩
    · right
      cases hu : upd none hs with
      | none =>
        rw [readText_eq, headers_lines none hg, headers_blank, hu] at h
        cases h
      | some n =>
        have hd := (upd_none hg).1 hu
        rw [← List.append_assoc, readText_block hg hd] at h
        refine ⟨hs, n, r, hg, hd, ?_, ?_, by simp⟩
        · apply Nat.le_of_not_lt
          intro h1
          have : isizeMax < n := h1
          simp [this] at h
        · apply Nat.lt_of_not_le
          intro h1
          simp only [h1, if_true] at h
          split at h
          · cases h
          · split at h <;> cases h
    · exact .inl ⟨hs, t, hg, ht, rfl⟩
    · rw [readText_eq, headers_lines none hg, headers_bad _ hl] at h
      cases h
  · rintro (⟨hs, t, hg, ht, rfl⟩ | ⟨hs, n, t, hg, hd, h1, h2, rfl⟩)
    · rw [readText_eq, headers_lines none hg, headers_end _ ht]
      rfl
    · rw [readText_block hg hd]
      have h3 : ¬ isizeMax < n := Nat.not_lt.2 h1
      have h4 : ¬ n ≤ t.length := Nat.not_le.2 h2
      simp [h3, h4]

theorem readMsg_ioError {a : Bytes} {b : Bool} :
    readMsg (⟨a, b⟩ : Flat) = .ioError ↔ readText (⟨a, b⟩ : Flat) = .ioError := by
  unfold readMsg
  cases readText (⟨a, b⟩ : Flat) with
  | item cs r => simp only; split <;> simp
  | _ => simp

/-- An input that has not broken gives no I/O error. -/
theorem unbroken (a : Bytes) : readMsg (⟨a, false⟩ : Flat) ≠ .ioError := by
  intro h2
  have h4 := readMsg_ioError.1 h2
  obtain ⟨hs, t, hg, rfl, hc⟩ := stream_cases a
  rw [readText_eq, headers_lines none hg] at h4
  rcases hc with ⟨r, rfl⟩ | ht | ⟨l, r, rfl, hl⟩
  · rw [headers_blank] at h4
    cases hu : upd none hs with
    | none => rw [hu] at h4; cases h4
    | some n =>
      rw [hu] at h4
      simp only at h4
      split at h4
      · cases h4
      · split at h4
        · split at h4 <;> cases h4
        · simp at h4
  · rw [headers_end _ ht] at h4
    by_cases h : t = [] <;> simp [h] at h4
  · rw [headers_bad _ hl] at h4; cases h4

/-- C78: as long as the input is open, `Message::read` returns exactly when, on the bytes there are, it does not ask
for a byte beyond them (`⟨s.unread, true⟩`: such a request fails), and with the same result. -/
theorem C78_determined {s : State} (he : s.inEnd = none) (r : Res Flat Message) :
    Settled s r ↔ readMsg (⟨s.unread, true⟩ : Flat) ≠ .ioError ∧
      readMsg (⟨s.unread, true⟩ : Flat) = Spec.followed [] true r := by
  have hset : Settled s r ↔ ∀ more b, readMsg (⟨s.unread ++ more, b⟩ : Flat) = Spec.followed more b r := by
    unfold Settled
    rw [he]
    cases r <;> rfl
  rw [hset]
  constructor
  · intro h
    have h1 := h [] true
    have h2 := h [] false
    rw [List.append_nil] at h1 h2
    refine ⟨?_, h1⟩
    intro h3
    have : r = .ioError := by
      rw [h3] at h1
      cases r <;> first | rfl | cases h1
    subst this
    exact unbroken _ h2
  · rintro ⟨h1, h2⟩ more b
    rw [readMsg_followed h1, h2]
    cases r <;> simp [Spec.followed]

/-- C78: the reader waits for bytes exactly as long as those that have come make up an unfinished frame. -/
theorem C78_waits {k : Kind} {s : State} (hr : s.reader = .reading) (he : s.inEnd = none) :
    (¬ ∃ s', Transport.Step k s .read s') ↔ Spec.Unfinished s.unread := by
  rw [← unfinished_iff, ← readMsg_ioError]
  constructor
  · intro h
    apply Classical.byContradiction
    intro h1
    refine h ⟨_, .read s (readMsg (⟨s.unread, true⟩ : Flat)) hr ((C78_determined he _).2 ⟨h1, ?_⟩)⟩
    have := readMsg_followed h1 [] true
    rwa [List.append_nil] at this
  · rintro h ⟨s', hs⟩
    cases hs with
    | read r _ hset => exact ((C78_determined he _).1 hset).1 h

/-- C78: once the input has ended the reader does not wait. -/
theorem C78_ended {k : Kind} {s : State} (hr : s.reader = .reading) (he : s.inEnd ≠ none) :
    ∃ s', Transport.Step k s .read s' := by
  cases h : s.inEnd with
  | none => exact absurd h he
  | some b => exact ⟨_, .read s (readMsg (⟨s.unread, b⟩ : Flat)) hr (by simp [Settled, h])⟩

variable [Conn.Dbg] {process : InitializeBuild → Option Value} {k : Kind}

open Session in
/-- C79: if the input that has arrived settles that after some messages, none of them the exit notification, no
message follows but something that is not one (or a broken connection), the process, once it can go no further, has
exited with an error. -/
theorem C79_malformed {p : Proc} {as : List Session.Act} (h : Session.Steps k process {} as p)
    (hw : Session.Act.writeFails ∉ as) (hq : Quiet k process p)
    {ms : List Message} {stop : Stop} (hi : Spec.Input p.io ms stop) (hs : stop ≠ .eof)
    (hx : Message.notification .exit ∉ ms) : p.exit = some false := by
  have hr := proc_reachable h
  have hpre : p.io.delivered <+: ms := by
    have h1 := C51_prefix hr [] (p.io.inEnd.getD false)
    unfold Spec.Input at hi
    split at hi <;> rename_i he
    · simpa [he, hi] using h1
    · have h2 := hi [] false
      rw [List.append_nil] at h1 h2
      simpa [he, h2] using h1
  have hdx : Message.notification .exit ∉ p.io.delivered := fun h => hx (hpre.subset h)
  have hone : p.exit ≠ some true := by
    intro h1
    rcases (C75_success h h1).2 with ⟨ms', h2⟩ | ⟨h2, h3⟩
    · exact hdx (by simp [h2])
    · simp only [Spec.Input, h2, h3, Prod.mk.injEq] at hi
      exact hs hi.2.symm
  rcases C71_nothing_pending h hw hq with ⟨b, h1⟩ | ⟨h1, h2, _, _⟩
  · cases b with
    | true => exact absurd h1 hone
    | false => exact h1
  · exfalso
    cases hex : p.exit with
    | some b => obtain ⟨_, r, h4, _⟩ := (mainInv h).exits b hex; rw [h4] at h1; cases h1
    | none =>
    cases hrd : p.io.reader with
    | reading =>
      have hno : ¬ ∃ s', Transport.Step k p.io .read s' := by
        rintro ⟨s', h3⟩
        rcases hq _ _ (.io hex h3 rfl) with h | h <;> cases h
      have hun := readMsg_ioError.2 (unfinished_iff.2 ((C78_waits hrd h2).1 hno))
      obtain ⟨⟨used, ps, hu, hp, hc⟩, _, _⟩ := (readInv hr).1
      simp only [Spec.Input, h2] at hi
      have h5 := hi [] true
      have h6 := hi [] false
      rw [List.append_nil, hu, readAll_carries hc, readAll_eq] at h5 h6
      rw [hun] at h5
      have h7 := h6.trans h5.symm
      cases h8 : readMsg (⟨p.io.unread, false⟩ : Flat) with
      | item m r =>
        obtain ⟨r, b⟩ := r
        have := readMsg_extension h8 [] true
        rw [List.append_nil, hun] at this
        cases this
      | ioError => exact unbroken _ h8
      | _ => rw [h8] at h7; cases h7
    | sending m =>
      have hrx : p.io.rxAlive = true := by
        cases h3 : p.io.rxAlive with
        | true => rfl
        | false => obtain ⟨r, h4⟩ := (mainInv h).gone (.inl h3); rw [h4] at h1; cases h1
      rcases hq _ _ (.recv hex h1 (.deliver _ m hrd hrx)) with h | h <;> cases h
    | _ => rcases hq _ _ (.closed hex h1 (by rw [hrd]; rfl)) with h | h <;> cases h

omit [Conn.Dbg] in
/-- What is read from bytes is carried by the first of them. -/
theorem readAll_carried : ∀ (n : Nat) (a : Bytes) (b : Bool), a.length ≤ n →
    ∀ bs0 ms0, Spec.Carries bs0 ms0 →
    ∃ bs rest, a = bs ++ rest ∧ Spec.Carries (bs0 ++ bs) (ms0 ++ (readAll (⟨a, b⟩ : Flat)).1) := by
  intro n
  induction n with
  | zero =>
    intro a b ha bs0 ms0 h
    have : a = [] := by cases a <;> simp_all
    subst this
    refine ⟨[], [], rfl, ?_⟩
    rw [readAll_eq]
    cases b <;> simpa [readMsg_nil.1, readMsg_nil.2] using h
  | succ n ih =>
    intro a b ha bs0 ms0 h
    rw [readAll_eq]
    cases h1 : readMsg (⟨a, b⟩ : Flat) with
    | item m r =>
      obtain ⟨r, b'⟩ := r
      obtain ⟨rfl, f, cs, j, hf, hl, hj, hd, rfl⟩ := readMsg_item_iff.1 h1
      have := frame_nonempty hf
      obtain ⟨bs, rest, rfl, h3⟩ := ih r b' (by simp at ha; omega) _ _ (.snoc h hf hl hj hd)
      exact ⟨f ++ bs, rest, by simp, by simpa using h3⟩
    | _ => exact ⟨[], a, rfl, by simpa using h⟩

open Session Conn in
/-- C79: a session in which something that is not a message, or a broken connection, takes the place of shutdown ends
with an error; all requests before it have been answered, in order, except that the last answer may not have been
written in full. -/
theorem C79_session {p : Proc} {as : List Session.Act} (h : Session.Steps k process {} as p)
    (hw : Session.Act.writeFails ∉ as) (hq : Quiet k process p)
    {early : List Request} {id : RequestId} {ip : InitializeBuild} {v : Value} {pre : List Message} {stop : Stop}
    (hi : Spec.Input p.io (Spec.session early id ip pre) stop) (hs : stop ≠ .eof)
    (he : ∀ r ∈ early, Spec.Early r) (hv : process ip = some v) (hn : Spec.NoShutdown pre)
    (hx : Message.notification .exit ∉ pre) :
    p.exit = some false ∧
    ∃ ms, Spec.Served early id v (Spec.requests pre) ms ∧ p.io.out <+: ms.flatMap Frame.write ∧
      ms.dropLast.flatMap Frame.write <+: p.io.out := by
  have hr := proc_reachable h
  have hsx : Message.notification .exit ∉ Spec.session early id ip pre := by simp [Spec.session, hx]
  have hex := C79_malformed h hw hq hi hs hsx
  refine ⟨hex, ?_⟩
  have hfs := feed_session (id := id) he hv hn
  have hra : ∃ b, readAll (⟨p.io.arrived, b⟩ : Flat) = (Spec.session early id ip pre, stop) := by
    unfold Spec.Input at hi
    split at hi
    · exact ⟨_, hi⟩
    · exact ⟨false, by simpa using hi [] false⟩
  obtain ⟨b, hra⟩ := hra
  obtain ⟨bs, rest, hb, hc⟩ := readAll_carried _ p.io.arrived b (Nat.le_refl _) [] [] .nil
  rw [hra] at hc
  simp only [List.nil_append] at hc
  have hd := delivers_all h hw hq hb hc (fun _ ms hm => feed_stays hm (by rw [hfs])) (by
    intro ms m hm
    have h1 := (List.prefix_append ms [m]).trans hm
    exact ⟨fun h2 => hsx (h1.subset h2), feed_alive h1 (by rw [hfs]; simp)⟩)
  have hall : p.io.delivered = Spec.session early id ip pre := by
    have h1 := C51_prefix hr [] b
    rw [List.append_nil, hra] at h1
    exact (h1.eq_of_length_le hd.length_le)
  have hat := (mainInv h).at' (no_fail h hw)
  rw [hall, hfs] at hat
  obtain ⟨_, r, h1, _⟩ := (mainInv h).exits _ hex
  have hacc : p.io.accepted = early.map refusal ++ [.response ⟨id, some v, none⟩] ++ (Spec.requests pre).map reply := by
    cases hat with
    | rest h3 _ => rw [h1] at h3; cases h3
    | sending h3 _ _ => rw [h1] at h3; cases h3
    | closed _ h3 h4 _ h5 => exact h5
    | late h3 _ _ _ => cases h3
  refine ⟨_, ⟨_, _, rfl, refusals _, replies _⟩, ?_⟩
  rw [← hacc]
  exact C53_output hr

end

/-! ### Concrete cases -/

section
attribute [local instance] Ext.sample FloatText.sample Dbg.sample
open Session Conn

/-- Beside C78: a header block that declares 3 bytes, and 2 bytes: the reader waits; one byte more, and it does not. -/
example (k : Kind) : Spec.Unfinished (Spec.lines [lenHeader 3] ++ Spec.blank ++ [123, 125]) ∧
    (¬ ∃ s', Transport.Step k { arrived := [], unread := Spec.lines [lenHeader 3] ++ Spec.blank ++ [123, 125] } .read s') ∧
    ∃ s', Transport.Step k { arrived := [], unread := Spec.lines [lenHeader 3] ++ Spec.blank ++ [123, 125, 32] }
      .read s' := by
  have h3 : Spec.Unfinished (Spec.lines [lenHeader 3] ++ Spec.blank ++ [123, 125]) :=
    .inr ⟨_, 3, _, lenHeader_good (by decide), lenHeader_declares (by decide), by decide, by decide, rfl⟩
  refine ⟨h3, (C78_waits rfl rfl).2 h3, Classical.byContradiction fun h => ?_⟩
  have h1 := unfinished_iff.2 ((C78_waits (k := k) rfl rfl).1 h)
  rw [readText_block (lenHeader_good (n := 3) (by decide)) (lenHeader_declares (by decide))] at h1
  simp only [isizeMax] at h1
  have : fromUtf8 ([123, 125, 32] : Bytes) = some ['{', '}', ' '] := fromUtf8_iff.2 (by decide)
  simp [this] at h1

/-- Beside C78: part of a header line. -/
example : Spec.Unfinished [67, 111] := .inl ⟨[], [67, 111], by simp [Spec.GoodLines], by decide, rfl⟩

example (k : Kind) : ∃ s', Transport.Step k { arrived := [], unread := [67, 111], inEnd := some true } .read s' :=
  C78_ended rfl (by simp)

/-- Beside C79: the sample conversation, then a line that is not a header line. -/
example (k : Kind) : ∃ as p, Session.Steps k sampleHandler {} as p ∧ p.exit = some false ∧
    ∃ ms, Spec.sampleServed ms ∧ p.io.out <+: ms.flatMap Frame.write ∧
      ms.dropLast.flatMap Frame.write <+: p.io.out := by
  obtain ⟨as, p, h1, h2, _, h3, h4, h5⟩ := settle k sampleHandler (framed sampleTalk ++ [120, 10])
  refine ⟨as, p, h1, C79_session (id := .i32 1) (ip := sampleInit) (v := .ofJson (.str "c"))
    (early := [.workspaceReload (.str "a")]) (pre := [.request (.workspaceBuildTargets (.i32 2)),
      .notification .initialized]) (stop := .invalidData) h1 h2 h3 ?_ (by simp)
    (by simp [Spec.Early]) rfl (by simp [Spec.NoShutdown]) (by simp)⟩
  have h6 := sampleBad_input
  simp only [Spec.Input, h5]
  intro more b
  rw [h4, List.append_assoc, readAll_carries sampleTalk_carries.1]
  have := h6 more b
  simp only [sampleBad] at this
  rw [this]
  rfl

end
end Bsp
