/-
C94: how much memory a peer can make a read claim.  C95: what reading does not give back.
-/
import Verif.Resources
import Verif.Props.Lines

namespace Bsp
open Frame Json
open Spec (Header lines blank GoodLines Declares keys)

/-! ### C94 -/

private theorem room_step (size : Option Nat) {s s1 : Flat} {l : Bytes}
    (hr : Source.readUntil s = some (l, s1)) : headersRoom size s = if l = [] then 0 else
      max l.length (match fromUtf8 l with
      | none => 0
      | some line =>
        match stripCrlf line with
        | none => 0
        | some [] =>
          match size with
          | none => 0
          | some n => if isizeMax < n then 0 else n
        | some (c :: b) =>
          match splitSep (c :: b) with
          | none => 0
          | some (name, value) =>
            if name = contentLength then
              match parseUsize value with
              | none => 0
              | some n => headersRoom (some n) s1
            else headersRoom size s1) := by
  conv => lhs; unfold headersRoom
  split
  · rename_i h1; rw [hr] at h1; cases h1
  · rename_i l' s' h1
    rw [hr] at h1; cases h1
    rfl

/-- The buffer in terms of what the header loop returns. -/
private theorem room_headers (size : Option Nat) (s : Flat) :
    (∃ n s', headers size s = .item n s' ∧ s'.bytes.length ≤ s.bytes.length ∧
      headersRoom size s ≤ max (s.bytes.length - s'.bytes.length) (if isizeMax < n then 0 else n) ∧
      (if isizeMax < n then 0 else n) ≤ headersRoom size s) ∨
    ((∀ n s', headers size s ≠ .item n s') ∧ headersRoom size s ≤ s.bytes.length) := by
  cases hr : Source.readUntil s with
  | none =>
    refine .inr ⟨?_, ?_⟩
    · unfold headers
      split
      · simp
      · rename_i h; rw [hr] at h; cases h
    · unfold headersRoom
      split
      · exact Nat.le_refl _
      · rename_i h; rw [hr] at h; cases h
  | some p =>
    obtain ⟨l, s1⟩ := p
    have hlen : l.length + s1.bytes.length = s.bytes.length := by
      simp only [Source.readUntil, Flat.readUntil] at hr
      split at hr
      · rename_i l' r h1
        cases hr
        have := (splitLine_eq h1).1
        simp [this]
      · split at hr
        · cases hr
        · cases hr; simp
    by_cases hl : l = []
    · refine .inr ⟨?_, ?_⟩
      · rw [headers_step size hr]; simp [hl]
      · rw [room_step size hr]; simp [hl]
    · have hpos : 0 < l.length := List.length_pos_iff.2 hl
      have rec' : ∀ sz, (∃ n s', headers sz s1 = .item n s' ∧ s'.bytes.length ≤ s1.bytes.length ∧
          headersRoom sz s1 ≤ max (s1.bytes.length - s'.bytes.length) (if isizeMax < n then 0 else n) ∧
          (if isizeMax < n then 0 else n) ≤ headersRoom sz s1) ∨
        ((∀ n s', headers sz s1 ≠ .item n s') ∧ headersRoom sz s1 ≤ s1.bytes.length) :=
        fun sz => room_headers sz s1
      have lift : ∀ sz, headers size s = headers sz s1 → headersRoom size s = max l.length (headersRoom sz s1) →
          (∃ n s', headers size s = .item n s' ∧ s'.bytes.length ≤ s.bytes.length ∧
            headersRoom size s ≤ max (s.bytes.length - s'.bytes.length) (if isizeMax < n then 0 else n) ∧
            (if isizeMax < n then 0 else n) ≤ headersRoom size s) ∨
          ((∀ n s', headers size s ≠ .item n s') ∧ headersRoom size s ≤ s.bytes.length) := by
        intro sz e1 e2
        rw [e1, e2]
        rcases rec' sz with ⟨n, s', h1, h2, h3, h4⟩ | ⟨h1, h2⟩
        · exact .inl ⟨n, s', h1, by omega, by omega, by omega⟩
        · exact .inr ⟨h1, by omega⟩
      have stop : headers size s = .invalidData → headersRoom size s = max l.length 0 →
          (∃ n s', headers size s = .item n s' ∧ s'.bytes.length ≤ s.bytes.length ∧
            headersRoom size s ≤ max (s.bytes.length - s'.bytes.length) (if isizeMax < n then 0 else n) ∧
            (if isizeMax < n then 0 else n) ≤ headersRoom size s) ∨
          ((∀ n s', headers size s ≠ .item n s') ∧ headersRoom size s ≤ s.bytes.length) := by
        intro e1 e2
        rw [e1, e2]
        exact .inr ⟨by simp, by omega⟩
      have e1 := headers_step size hr
      have e2 := room_step size hr
      rw [if_neg hl] at e1 e2
      cases hu : fromUtf8 l with
      | none => rw [hu] at e1 e2; exact stop e1 e2
      | some line =>
        rw [hu] at e1 e2
        simp only at e1 e2
        cases hc : stripCrlf line with
        | none => rw [hc] at e1 e2; exact stop e1 e2
        | some b =>
          rw [hc] at e1 e2
          cases b with
          | nil =>
            simp only at e1 e2
            cases size with
            | none => exact stop e1 e2
            | some n =>
              simp only at e1 e2
              refine .inl ⟨n, s1, e1, by omega, ?_, ?_⟩
              · rw [e2]; omega
              · rw [e2]; omega
          | cons c b =>
            simp only at e1 e2
            cases hs : splitSep (c :: b) with
            | none => rw [hs] at e1 e2; exact stop e1 e2
            | some nv =>
              obtain ⟨name, value⟩ := nv
              rw [hs] at e1 e2
              simp only at e1 e2
              by_cases hn : name = contentLength
              · rw [if_pos hn] at e1 e2
                cases hp : parseUsize value with
                | none => rw [hp] at e1 e2; exact stop e1 e2
                | some n => rw [hp] at e1 e2; exact lift (some n) e1 e2
              · rw [if_neg hn] at e1 e2
                exact lift size e1 e2
termination_by s.bytes.length
decreasing_by omega

/-- C94 (violated by the code): whatever the header block declares, up to `isize::MAX`, is claimed at once, whatever
follows. -/
theorem C94_claimed {hs : List Header} (hg : GoodLines hs) {n : Nat} (hd : Declares hs n) (h : n ≤ 2 ^ 63 - 1)
    (t : Bytes) (b : Bool) : n ≤ room ⟨lines hs ++ blank ++ t, b⟩ := by
  have e : headers none (⟨lines hs ++ blank ++ t, b⟩ : Flat) = .item n ⟨t, b⟩ := by
    rw [List.append_assoc, headers_lines none hg, headers_blank, upd_declares hd]
  rcases room_headers none ⟨lines hs ++ blank ++ t, b⟩ with ⟨k, s', h1, _, _, h4⟩ | ⟨h1, _⟩
  · rw [e] at h1
    cases h1
    have : ¬ isizeMax < n := by rw [isizeMax]; omega
    rwa [if_neg this] at h4
  · exact absurd e (h1 n ⟨t, b⟩)

/-- C94 (violated by the code): a peer that sends 39 bytes at most makes the reader claim any number of bytes up to
`isize::MAX`, before anything of the body has arrived. -/
theorem C94_violated (n : Nat) (h : n ≤ 2 ^ 63 - 1) :
    ∃ s : Bytes, s.length ≤ 39 ∧ ∀ more b, n ≤ room ⟨s ++ more, b⟩ := by
  have hlt : n < 2 ^ 64 := by omega
  refine ⟨lines [lenHeader n] ++ blank, ?_, ?_⟩
  · have hd : (Nat.toDigits 10 n).length ≤ 19 := by
      have := Nat.length_toDigits_le_iff (b := 10) (n := n) (k := 19) (by decide) (by decide)
      omega
    have hu : (utf8 (Nat.toDigits 10 n)).length = (Nat.toDigits 10 n).length := by
      have hc : ∀ c ∈ Nat.toDigits 10 n, (String.utf8EncodeChar c).length = 1 := by
        intro c hc
        have h1 := (Text.toDigits_int n).1.2 c hc
        rw [String.length_utf8EncodeChar, Char.utf8Size_eq_one_iff]
        have h2 : c.val ≤ '9'.val := h1.2
        exact UInt32.le_trans h2 (by decide)
      generalize Nat.toDigits 10 n = ds at hc
      induction ds with
      | nil => rfl
      | cons c ds ih =>
        rw [utf8_cons, List.length_append, hc c (by simp), ih (fun x hx => hc x (by simp [hx]))]
        simp [Nat.add_comm]
    have e1 : (utf8 (Spec.contentLength ++ Spec.sep)).length = 16 := by decide
    have e2 : (utf8 Spec.crlf).length = 2 := by decide
    have e3 : blank.length = 2 := by decide
    simp only [lines, List.flatMap_cons, List.flatMap_nil, Header.bytes, lenHeader, List.append_nil,
      List.length_append, utf8_append] at *
    omega
  · exact fun more b => C94_claimed (lenHeader_good hlt) (lenHeader_declares hlt) h more b

/-- C94, the part that holds: a read that succeeds has not claimed more bytes than it has consumed.  Missing: reads
that wait for their body or fail, see `C94_violated`. -/
theorem C94_partial (s : Flat) (cs : List Char) (s' : Flat) (h : readText s = .item cs s') :
    room s + s'.bytes.length ≤ s.bytes.length := by
  rw [readText_eq] at h
  rcases room_headers none s with ⟨n, s1, h1, h2, h3, h4⟩ | ⟨h1, _⟩
  · rw [h1] at h
    simp only at h
    split at h
    · cases h
    · rename_i hn
      rw [if_neg hn] at h3 h4
      split at h
      · rename_i hle
        split at h
        · cases h
        · cases h
          rw [room]
          simp only [List.length_drop]
          omega
      · split at h <;> cases h
  · cases hh : headers none s with
    | item n s1 => exact absurd hh (h1 n s1)
    | _ => rw [hh] at h; cases h

/-- C94, exactly: a read claims more than it has received only if a complete header block declares more, and then no
more than it declares. -/
theorem C94_declared (s : Bytes) (b : Bool) (h : s.length < room ⟨s, b⟩) :
    ∃ hs n t, GoodLines hs ∧ Declares hs n ∧ s = lines hs ++ blank ++ t ∧ room ⟨s, b⟩ = n ∧ n ≤ 2 ^ 63 - 1 := by
  rw [room] at h ⊢
  rcases room_headers none ⟨s, b⟩ with ⟨n, s', h1, h2, h3, h4⟩ | ⟨_, h2⟩
  · obtain ⟨hs, t, hg, rfl, ht⟩ := stream_cases s
    have hn : headersRoom none ⟨lines hs ++ t, b⟩ = n ∧ n ≤ 2 ^ 63 - 1 := by
      rw [isizeMax] at h3 h4
      simp only at h h2 h3 h4 ⊢
      split at h3
      · rw [if_pos (by assumption)] at h4; omega
      · rw [if_neg (by assumption)] at h4; omega
    rw [headers_lines none hg] at h1
    rcases ht with ⟨r, rfl⟩ | ht | ⟨l, r, rfl, hl⟩
    · rw [headers_blank] at h1
      split at h1
      · cases h1
      · rename_i k hk
        cases h1
        exact ⟨hs, n, r, hg, (upd_none hg).1 hk, by simp, hn.1, hn.2⟩
    · rw [headers_end _ ht] at h1
      split at h1
      · cases h1
      · split at h1 <;> cases h1
    · rw [headers_bad _ hl] at h1
      cases h1
  · simp only at h2; omega

/-- Beside C94: a header that declares 2^40 bytes, with nothing behind it; a frame that is there in full. -/
example : 2 ^ 40 ≤ room ⟨lines [lenHeader (2 ^ 40)] ++ blank, false⟩ ∧ room ⟨lines [lenHeader 2] ++ blank ++ [0x7b, 0x7d], true⟩ ≤ 23 := by
  refine ⟨?_, ?_⟩
  · simpa using C94_claimed (lenHeader_good (n := 2 ^ 40) (by decide)) (lenHeader_declares (by decide)) (by decide) [] false
  · have := C94_partial _ _ _ (C01_frame "{}".toList (by decide) [] true)
    have e : utf8 ("Content-Length: ".toList ++ Nat.toDigits 10 (utf8 "{}".toList).length ++ "\r\n\r\n".toList) ++
      utf8 "{}".toList ++ [] = lines [lenHeader 2] ++ blank ++ [0x7b, 0x7d] := by decide
    rw [e] at this
    exact this

/-! ### C95 -/

section
variable [Ext]

/-- The method of a custom request, which is leaked, in bytes.
Specification about bsp-server/src/request.rs:51, 462. -/
def Spec.leaked : Message → Nat
  | .request (.custom _ m _) => m.utf8ByteSize
  | _ => 0

private theorem leak_dec (j : Json) :
    Message.leak j = match Message.dec j with | some m => Spec.leaked m | none => 0 := by
  have key : ∀ id m p, Request.leakOfMethod m =
      match Request.ofMethod id m p with | some r => Spec.leaked (.request r) | none => 0 := by
    intro id m p
    by_cases h0 : m = "build/initialize"
    · subst h0
      simp only [Request.leakOfMethod, Request.ofMethod, String.reduceEq, if_true, if_false]
      first | rfl | (cases _ <;> rfl) | (split <;> rename_i h <;> simp at h <;> first | rfl | (obtain ⟨x, _, rfl⟩ := h; rfl))
    by_cases h1 : m = "build/shutdown"
    · subst h1
      simp only [Request.leakOfMethod, Request.ofMethod, String.reduceEq, if_true, if_false]
      first | rfl | (cases _ <;> rfl) | (split <;> rename_i h <;> simp at h <;> first | rfl | (obtain ⟨x, _, rfl⟩ := h; rfl))
    by_cases h2 : m = "workspace/buildTargets"
    · subst h2
      simp only [Request.leakOfMethod, Request.ofMethod, String.reduceEq, if_true, if_false]
      first | rfl | (cases _ <;> rfl) | (split <;> rename_i h <;> simp at h <;> first | rfl | (obtain ⟨x, _, rfl⟩ := h; rfl))
    by_cases h3 : m = "workspace/reload"
    · subst h3
      simp only [Request.leakOfMethod, Request.ofMethod, String.reduceEq, if_true, if_false]
      first | rfl | (cases _ <;> rfl) | (split <;> rename_i h <;> simp at h <;> first | rfl | (obtain ⟨x, _, rfl⟩ := h; rfl))
    by_cases h4 : m = "buildTarget/dependencyModules"
    · subst h4
      simp only [Request.leakOfMethod, Request.ofMethod, String.reduceEq, if_true, if_false]
      first | rfl | (cases _ <;> rfl) | (split <;> rename_i h <;> simp at h <;> first | rfl | (obtain ⟨x, _, rfl⟩ := h; rfl))
    by_cases h5 : m = "debugSession/start"
    · subst h5
      simp only [Request.leakOfMethod, Request.ofMethod, String.reduceEq, if_true, if_false]
      first | rfl | (cases _ <;> rfl) | (split <;> rename_i h <;> simp at h <;> first | rfl | (obtain ⟨x, _, rfl⟩ := h; rfl))
    by_cases h6 : m = "buildTarget/sources"
    · subst h6
      simp only [Request.leakOfMethod, Request.ofMethod, String.reduceEq, if_true, if_false]
      first | rfl | (cases _ <;> rfl) | (split <;> rename_i h <;> simp at h <;> first | rfl | (obtain ⟨x, _, rfl⟩ := h; rfl))
    by_cases h7 : m = "textDocument/inverseSources"
    · subst h7
      simp only [Request.leakOfMethod, Request.ofMethod, String.reduceEq, if_true, if_false]
      first | rfl | (cases _ <;> rfl) | (split <;> rename_i h <;> simp at h <;> first | rfl | (obtain ⟨x, _, rfl⟩ := h; rfl))
    by_cases h8 : m = "buildTarget/dependencySources"
    · subst h8
      simp only [Request.leakOfMethod, Request.ofMethod, String.reduceEq, if_true, if_false]
      first | rfl | (cases _ <;> rfl) | (split <;> rename_i h <;> simp at h <;> first | rfl | (obtain ⟨x, _, rfl⟩ := h; rfl))
    by_cases h9 : m = "buildTarget/resources"
    · subst h9
      simp only [Request.leakOfMethod, Request.ofMethod, String.reduceEq, if_true, if_false]
      first | rfl | (cases _ <;> rfl) | (split <;> rename_i h <;> simp at h <;> first | rfl | (obtain ⟨x, _, rfl⟩ := h; rfl))
    by_cases h10 : m = "buildTarget/run"
    · subst h10
      simp only [Request.leakOfMethod, Request.ofMethod, String.reduceEq, if_true, if_false]
      first | rfl | (cases _ <;> rfl) | (split <;> rename_i h <;> simp at h <;> first | rfl | (obtain ⟨x, _, rfl⟩ := h; rfl))
    by_cases h11 : m = "buildTarget/compile"
    · subst h11
      simp only [Request.leakOfMethod, Request.ofMethod, String.reduceEq, if_true, if_false]
      first | rfl | (cases _ <;> rfl) | (split <;> rename_i h <;> simp at h <;> first | rfl | (obtain ⟨x, _, rfl⟩ := h; rfl))
    by_cases h12 : m = "buildTarget/test"
    · subst h12
      simp only [Request.leakOfMethod, Request.ofMethod, String.reduceEq, if_true, if_false]
      first | rfl | (cases _ <;> rfl) | (split <;> rename_i h <;> simp at h <;> first | rfl | (obtain ⟨x, _, rfl⟩ := h; rfl))
    by_cases h13 : m = "buildTarget/cleanCache"
    · subst h13
      simp only [Request.leakOfMethod, Request.ofMethod, String.reduceEq, if_true, if_false]
      first | rfl | (cases _ <;> rfl) | (split <;> rename_i h <;> simp at h <;> first | rfl | (obtain ⟨x, _, rfl⟩ := h; rfl))
    simp [Request.leakOfMethod, Request.ofMethod, Spec.leaked, h0, h1, h2, h3, h4, h5, h6, h7, h8, h9, h10, h11, h12, h13]
  have hr : Request.leak j = match Request.dec j with | some r => Spec.leaked (.request r) | none => 0 := by
    cases j with
    | obj ms =>
      simp only [Request.leak, Request.dec, Request.decMode]
      cases Request.visitLoop .buffered ms ⟨none, none, none⟩ with
      | none => rfl
      | some a =>
        obtain ⟨i, m, p⟩ := a
        simp only [Option.bind_some, Request.finish_eq]
        cases m with
        | none => rfl
        | some m =>
          cases i with
          | none => rfl
          | some i =>
            cases hi : RequestId.dec i.json with
            | none => simp [hi]
            | some i' =>
              cases p with
              | none => simp [hi]
              | some p => simpa [hi] using key i' m p
    | _ => rfl
  rw [Message.leak, hr, Message.dec]
  cases Request.dec j with
  | some r => rfl
  | none =>
    cases Response.dec j with
    | some r => rfl
    | none => cases Notification.dec j <;> rfl

variable [FloatText]

private theorem leakAll_eq (s : Flat) : leakAll s =
    match readText s with
    | .item cs _ =>
      match Text.parse cs with
      | none => 0
      | some j => Message.leak j +
        match readMsg s with
        | .item _ s' => leakAll s'
        | _ => 0
    | _ => 0 := by
  conv => lhs; unfold leakAll
  cases readText s with
  | item cs s1 =>
    dsimp only
    cases Text.parse cs with
    | none => rfl
    | some j =>
      dsimp only
      congr 1
      split <;> simp_all
  | _ => rfl

/-- C95: what the reader never gives back, on any input whatever: exactly the method names of the custom requests that
it has delivered. -/
theorem C95_exact (s : Flat) : leakAll s = ((readAll s).1.map Spec.leaked).sum := by
  induction hn : s.bytes.length using Nat.strongRecOn generalizing s with
  | _ n ih =>
    rw [leakAll_eq, readAll_eq]
    cases ht : readText s with
    | item cs s1 =>
      simp only [readMsg, ht]
      cases hp : Text.parse cs with
      | none => rfl
      | some j =>
        simp only [Option.bind_some, leak_dec]
        cases hd : Message.dec j with
        | none => rfl
        | some m =>
          have hm : readMsg s = .item m s1 := by simp [readMsg, ht, hp, hd]
          have := readMsg_size _ hm
          simp only [List.map_cons, List.sum_cons]
          rw [ih s1.bytes.length (by subst hn; exact this) s1 rfl]
    | _ => simp [readMsg, ht]

end

section
variable [LawfulExt] [FloatText]

/-- C95, for a stream of written messages: the method names of its custom requests. -/
theorem C95_stream (ms : List Message) (h : ∀ m ∈ ms, Spec.WireOk m ∧ Spec.Carried m) :
    leakAll ⟨ms.flatMap write, false⟩ = (ms.map Spec.leaked).sum := by
  rw [C95_exact, C02_stream ms h, List.map_map]
  congr 1
  apply List.map_congr_left
  intro m _
  cases m with
  | request r => cases r <;> rfl
  | _ => rfl

/-- C95: a peer that sends one and the same small custom request over and over makes the process lose any amount of
memory, though every message is read and could be dropped at once. -/
theorem C95_unbounded (id : RequestId) (method : String) (p : Value) (h : Spec.ReqOk (.custom id method p))
    (hc : Spec.Carried (.request (.custom id method p))) (hm : method ≠ "") (n : Nat) :
    n ≤ leakAll ⟨(List.replicate n (.request (.custom id method p) : Message)).flatMap write, false⟩ := by
  rw [C95_stream _ (fun m hmem => by rw [List.eq_of_mem_replicate hmem]; exact ⟨h, hc⟩)]
  have : 0 < method.utf8ByteSize := by
    rcases Nat.eq_zero_or_pos method.utf8ByteSize with h0 | h0
    · exact absurd (String.utf8ByteSize_eq_zero_iff.1 h0) hm
    · exact h0
  simp only [List.map_replicate, List.sum_replicate_nat, Spec.leaked]
  exact Nat.le_mul_of_pos_right n this

end

section
attribute [local instance] Ext.sample FloatText.sample

/-- Beside C95: the samples have one custom request, with a method of three bytes; sent seven times; and what is
leaked by a custom request that is not read as one, by a standard one, and by a request without params. -/
example : leakAll ⟨sampleMessages.flatMap write, false⟩ = 3 ∧
    7 ≤ leakAll ⟨(List.replicate 7 (.request (.custom (.str "7") "x/y" (.ofJson (.str "é\"\n"))) : Message)).flatMap
      write, false⟩ ∧
    Message.leak (.obj [("id", .int 1), ("method", .str "x/y"), ("params", .null)]) = 3 ∧
    Message.leak (.obj [("id", .int 1), ("method", .str "build/shutdown"), ("params", .null)]) = 0 ∧
    Message.leak (.obj [("id", .int 1), ("method", .str "x/y")]) = 0 := by
  refine ⟨C95_stream _ sample_ok, ?_, by decide, by decide, by decide⟩
  have h := sample_ok (.request (.custom (.str "7") "x/y" (.ofJson (.str "é\"\n")))) (by simp [sampleMessages])
  exact C95_unbounded _ _ _ h.1 h.2 (by decide) 7

end

end Bsp
