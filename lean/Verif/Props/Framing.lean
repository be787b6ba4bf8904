/-
Properties of framing: C01, C04–C10.
-/
import Verif.FrameLemmas

namespace Bsp
open Frame
open Spec (Header lines blank Numeral GoodLines Declares ValidUtf8 BadLine IsFrame)

/-! ### C01 -/

theorem contentLength_no_sep : ¬ Spec.sep <:+: Spec.contentLength := splitSep_none.1 (by decide)

/-- The header written before a text, as a header line. -/
def lenHeader (n : Nat) : Header := ⟨Spec.contentLength, Nat.toDigits 10 n⟩

theorem toDigits_numeral {n : Nat} (h : n < 2 ^ 64) : Numeral (Nat.toDigits 10 n) n :=
  ⟨[], _, rfl, .inl rfl, Nat.toDigits_ne_nil, (Text.toDigits_int n).1.2,
    Nat.ofDigitChars_ten_toDigits.symm, h⟩

theorem digits_no_newline (n : Nat) : '\n' ∉ Nat.toDigits 10 n := by
  intro h
  have := (Text.toDigits_int n).1.2 _ h
  revert this; decide

theorem lenHeader_good {n : Nat} (h : n < 2 ^ 64) : GoodLines [lenHeader n] := by
  intro x hx
  simp only [List.mem_singleton] at hx
  subst hx
  refine ⟨⟨by simp [lenHeader, Spec.contentLength], digits_no_newline n, splitSep_none.1 (by simp only [lenHeader]; decide)⟩, fun _ => ⟨n, toDigits_numeral h⟩⟩

theorem lenHeader_declares {n : Nat} (h : n < 2 ^ 64) : Declares [lenHeader n] n :=
  ⟨[], _, [], rfl, rfl, toDigits_numeral h, by simp⟩

theorem frame_eq (cs : List Char) :
    frame cs = lines [lenHeader (utf8 cs).length] ++ blank ++ utf8 cs := by
  have e : "Content-Length: ".toList = Spec.contentLength ++ Spec.sep := by decide
  have h : utf8 ("Content-Length: ".toList ++ Nat.toDigits 10 (utf8 cs).length ++
      ['\r', '\n', '\r', '\n']) =
      utf8 (Spec.contentLength ++ Spec.sep ++ Nat.toDigits 10 (utf8 cs).length ++ Spec.crlf) ++
        utf8 Spec.crlf := by
    rw [← utf8_append, e]
    simp [Spec.crlf]
  rw [frame, h, utf8_crlf]
  simp [lines, lenHeader, Header.bytes, blank]

/-- C01: reading a stream that starts with a framed text returns that text and leaves exactly what
follows the frame, whether the stream then ends or breaks. -/
theorem C01_frame (cs : List Char) (h : (utf8 cs).length ≤ 2 ^ 63 - 1) (rest : Bytes) (broken : Bool) :
    readText (⟨utf8 ("Content-Length: ".toList ++ Nat.toDigits 10 (utf8 cs).length ++
        "\r\n\r\n".toList) ++ utf8 cs ++ rest, broken⟩ : Flat) = .item cs ⟨rest, broken⟩ := by
  have e : "\r\n\r\n".toList = ['\r', '\n', '\r', '\n'] := by decide
  have := frame_eq cs
  rw [frame] at this
  have hlt : (utf8 cs).length < 2 ^ 64 := by omega
  rw [e, this, List.append_assoc,
    readText_block (lenHeader_good hlt) (lenHeader_declares hlt)]
  have h1 : ¬ isizeMax < (utf8 cs).length := by rw [isizeMax]; omega
  simp [h1, fromUtf8_iff.2 (rfl : utf8 cs = utf8 cs)]

/-- Beside C01: a two-byte character, followed by the start of another frame. -/
example : readText (⟨utf8 "Content-Length: 2\r\n\r\né".toList ++ utf8 "Content-".toList, false⟩ : Flat) =
    .item ['é'] ⟨utf8 "Content-".toList, false⟩ := by
  have := C01_frame ['é'] (by decide) (utf8 "Content-".toList) false
  have e : utf8 "Content-Length: 2\r\n\r\né".toList ++ utf8 "Content-".toList =
      utf8 ("Content-Length: ".toList ++ Nat.toDigits 10 (utf8 ['é']).length ++ "\r\n\r\n".toList) ++
        utf8 ['é'] ++ utf8 "Content-".toList := by decide
  rw [e]; exact this

/-! ### C04 -/

/-- C04: after good header lines the last `Content-Length` decides how many body bytes are taken;
nothing else in the header lines matters.  (`n` beyond the allocation limit is a panic, too few
bytes or a body that is not UTF-8 an error.) -/
theorem C04_last_length (hs : List Header) (hg : GoodLines hs) (n : Nat) (hd : Declares hs n)
    (body rest : Bytes) (broken : Bool) (hn : body.length = n) (hmax : n ≤ 2 ^ 63 - 1) :
    (∀ cs, body = utf8 cs →
      readText (⟨lines hs ++ blank ++ body ++ rest, broken⟩ : Flat) = .item cs ⟨rest, broken⟩) ∧
    (¬ ValidUtf8 body →
      readText (⟨lines hs ++ blank ++ body ++ rest, broken⟩ : Flat) = .invalidData) := by
  have h1 : ¬ isizeMax < n := by rw [isizeMax]; omega
  have key := readText_block hg hd (body ++ rest) broken
  subst hn
  simp only [h1, if_false, List.length_append, Nat.le_add_right, if_true, List.take_left',
    List.drop_left', ← List.append_assoc] at key
  constructor
  · intro cs hc
    rw [key, fromUtf8_iff.2 hc]
  · intro hc
    rw [key, fromUtf8_none.2 hc]

/-- C04: two header blocks that declare the same length are interchangeable, whatever other lines they
contain and whatever follows. -/
theorem C04_other_lines (hs hs' : List Header) (hg : GoodLines hs) (hg' : GoodLines hs') (n : Nat)
    (hd : Declares hs n) (hd' : Declares hs' n) (t : Bytes) (broken : Bool) :
    readText (⟨lines hs ++ blank ++ t, broken⟩ : Flat) =
      readText (⟨lines hs' ++ blank ++ t, broken⟩ : Flat) := by
  rw [readText_block hg hd, readText_block hg' hd']

/-- C04: too few body bytes are an error. -/
theorem C04_short_body (hs : List Header) (hg : GoodLines hs) (n : Nat) (hd : Declares hs n)
    (hmax : n ≤ 2 ^ 63 - 1) (body : Bytes) (hlt : body.length < n) :
    readText (⟨lines hs ++ blank ++ body, false⟩ : Flat) = .unexpectedEof ∧
    readText (⟨lines hs ++ blank ++ body, true⟩ : Flat) = .ioError := by
  have h1 : ¬ isizeMax < n := by rw [isizeMax]; omega
  rw [readText_block hg hd, readText_block hg hd]
  simp [h1, Nat.not_le.2 hlt]

/-- Beside C04: two lengths and two other headers; the name is case-sensitive and the value may have
a plus sign and leading zeros. -/
def sampleHeaders : List Header :=
  [⟨Spec.contentLength, ['7']⟩, ⟨"Content-Type".toList, "a: b".toList⟩,
   ⟨Spec.contentLength, "+003".toList⟩, ⟨"content-length".toList, ['9']⟩]

theorem sampleHeaders_good : GoodLines sampleHeaders := by
  intro x hx
  simp only [sampleHeaders, List.mem_cons, List.not_mem_nil, or_false] at hx
  rcases hx with rfl | rfl | rfl | rfl
  · exact ⟨⟨by decide, by decide, splitSep_none.1 (by decide)⟩, fun _ => ⟨7, parseUsize_iff.1 (by decide)⟩⟩
  · exact ⟨⟨by decide, by decide, splitSep_none.1 (by decide)⟩, fun h => absurd h (by decide)⟩
  · exact ⟨⟨by decide, by decide, splitSep_none.1 (by decide)⟩, fun _ => ⟨3, parseUsize_iff.1 (by decide)⟩⟩
  · exact ⟨⟨by decide, by decide, splitSep_none.1 (by decide)⟩, fun h => absurd h (by decide)⟩

theorem sampleHeaders_declares : Declares sampleHeaders 3 :=
  ⟨[_, _], _, [_], rfl, rfl, parseUsize_iff.1 (by decide), by decide⟩

example (rest : Bytes) : readText (⟨lines sampleHeaders ++ blank ++ [97, 98, 99] ++ rest, false⟩ : Flat) =
    .item ['a', 'b', 'c'] ⟨rest, false⟩ :=
  (C04_last_length _ sampleHeaders_good 3 sampleHeaders_declares [97, 98, 99] rest false rfl
    (by decide)).1 _ (by decide)

/-! ### C05 -/

/-- C05: a line that does not belong into a header block makes the read fail, whatever good lines
precede and whatever follows. -/
theorem C05_bad_line (hs : List Header) (hg : GoodLines hs) (l : Bytes) (hl : BadLine l)
    (rest : Bytes) (broken : Bool) :
    readText (⟨lines hs ++ l ++ rest, broken⟩ : Flat) = .invalidData := by
  rw [readText_eq, List.append_assoc, headers_lines none hg, headers_bad _ hl]

/-- C05: so does the end of the stream in the middle of a line. -/
theorem C05_unfinished_line (hs : List Header) (hg : GoodLines hs) (t : Bytes) (ht : t ≠ [])
    (hn : (10 : UInt8) ∉ t) : readText (⟨lines hs ++ t, false⟩ : Flat) = .invalidData := by
  rw [readText_eq, headers_lines none hg, headers_end _ hn]
  simp [ht]

/-- C05: so does a header block without `Content-Length`. -/
theorem C05_no_length (hs : List Header) (hg : GoodLines hs)
    (hno : ∀ h ∈ hs, h.name ≠ Spec.contentLength) (rest : Bytes) (broken : Bool) :
    readText (⟨lines hs ++ blank ++ rest, broken⟩ : Flat) = .invalidData := by
  rw [readText_eq, List.append_assoc, headers_lines none hg, headers_blank, upd_other hno]

/-- C05: nothing else in the header block makes a read fail with invalid data: the input then has one
of these three shapes, or a complete frame whose body is not UTF-8. -/
theorem C05_only (s : Bytes) (broken : Bool)
    (h : readText (⟨s, broken⟩ : Flat) = .invalidData) :
    ∃ hs t, GoodLines hs ∧ s = lines hs ++ t ∧
      ((∃ l r, t = l ++ r ∧ BadLine l) ∨
       (t ≠ [] ∧ (10 : UInt8) ∉ t) ∨
       ((∃ r, t = blank ++ r) ∧ ∀ h ∈ hs, h.name ≠ Spec.contentLength) ∨
       (∃ n body r, Declares hs n ∧ t = blank ++ body ++ r ∧ body.length = n ∧ ¬ ValidUtf8 body)) := by
  obtain ⟨hs, t, hg, rfl, ht⟩ := stream_cases s
  refine ⟨hs, t, hg, rfl, ?_⟩
  rcases ht with ⟨r, rfl⟩ | ht | ht
  · rcases declares_cases hs hg with ⟨n, hd⟩ | hno
    · right; right; right
      rw [← List.append_assoc, readText_block hg hd] at h
      split at h
      · cases h
      split at h
      · rename_i hle
        split at h
        · rename_i hf
          refine ⟨n, r.take n, r.drop n, hd, by simp, by simp [hle], fromUtf8_none.1 hf⟩
        · cases h
      · split at h <;> cases h
    · exact .inr (.inr (.inl ⟨⟨r, rfl⟩, hno⟩))
  · rw [readText_eq, headers_lines none hg, headers_end _ ht] at h
    by_cases hb : broken = true
    · simp [hb] at h
    · by_cases hnil : t = []
      · simp [hb, hnil] at h
      · exact .inr (.inl ⟨hnil, ht⟩)
  · exact .inl ht

/-- Beside C05: one instance of each kind of bad line, after good lines. -/
example (rest : Bytes) :
    readText (⟨lines sampleHeaders ++ utf8 "x: y\n".toList ++ rest, false⟩ : Flat) = .invalidData ∧
    readText (⟨lines sampleHeaders ++ utf8 "x:y\r\n".toList ++ rest, false⟩ : Flat) = .invalidData ∧
    readText (⟨lines sampleHeaders ++ utf8 "Content-Length: -1\r\n".toList ++ rest, false⟩ : Flat) =
      .invalidData := by
  refine ⟨C05_bad_line _ sampleHeaders_good _ ?_ _ _, C05_bad_line _ sampleHeaders_good _ ?_ _ _,
    C05_bad_line _ sampleHeaders_good _ ?_ _ _⟩
  · exact ⟨⟨utf8 "x: y".toList, by decide, by decide⟩, .inr (.inl ⟨_, rfl, stripCrlf_none.1 (by decide)⟩)⟩
  · exact ⟨⟨utf8 "x:y\r".toList, by decide, by decide⟩,
      .inr (.inr (.inl ⟨"x:y".toList, by decide, by decide, splitSep_none.1 (by decide)⟩))⟩
  · refine ⟨⟨utf8 "Content-Length: -1\r".toList, by decide, by decide⟩,
      .inr (.inr (.inr ⟨"-1".toList, by decide, ?_⟩))⟩
    rw [← parseUsize_none]; decide

/-! ### C06 -/

/-- C06: a `Content-Length` value is accepted exactly if it is a numeral, and denotes that number:
a text with `n` bytes of body is read iff the value is a numeral for `n`. -/
theorem C06_numeral (v : List Char) (hv : '\n' ∉ v) (cs : List Char)
    (hmax : (utf8 cs).length ≤ 2 ^ 63 - 1) :
    readText (⟨utf8 (Spec.contentLength ++ Spec.sep ++ v ++ Spec.crlf) ++ blank ++ utf8 cs, false⟩ :
        Flat) = .item cs ⟨[], false⟩ ↔
      Numeral v (utf8 cs).length := by
  have e : utf8 (Spec.contentLength ++ Spec.sep ++ v ++ Spec.crlf) = lines [⟨Spec.contentLength, v⟩] := by
    simp [lines, Header.bytes]
  have hok : (Header.mk Spec.contentLength v).Ok := ⟨by simp [Spec.contentLength], hv, contentLength_no_sep⟩
  constructor
  · intro h
    by_cases hn : ∃ n, Numeral v n
    · obtain ⟨n, hn⟩ := hn
      have hg : GoodLines [⟨Spec.contentLength, v⟩] := by
        intro x hx; simp only [List.mem_singleton] at hx; subst hx
        exact ⟨hok, fun _ => ⟨n, hn⟩⟩
      have hd : Declares [⟨Spec.contentLength, v⟩] n := ⟨[], _, [], rfl, rfl, hn, by simp⟩
      rw [e, readText_block hg hd] at h
      split at h
      · cases h
      split at h
      · rename_i hle
        split at h
        · cases h
        · rename_i cs' hf
          simp only [Res.item.injEq, Flat.mk.injEq, and_true] at h
          obtain ⟨rfl, h2⟩ := h
          have h3 := congrArg List.length h2
          simp only [List.length_drop, List.length_nil] at h3
          have : n = (utf8 cs').length := by omega
          rw [← this]; exact hn
      · simp at h
    · exfalso
      have hb : BadLine (utf8 (Spec.contentLength ++ Spec.sep ++ v ++ Spec.crlf)) := by
        have := header_bytes hok
        exact ⟨⟨_, this.1, this.2⟩, .inr (.inr (.inr ⟨v, rfl, hn⟩))⟩
      have := C05_bad_line [] (by simp [GoodLines]) _ hb (blank ++ utf8 cs) false
      simp only [lines, List.flatMap_nil, List.nil_append] at this
      rw [List.append_assoc, this] at h
      cases h
  · intro hn
    have hg : GoodLines [⟨Spec.contentLength, v⟩] := by
      intro x hx; simp only [List.mem_singleton] at hx; subst hx
      exact ⟨hok, fun _ => ⟨_, hn⟩⟩
    have := (C04_last_length _ hg _ ⟨[], _, [], rfl, rfl, hn, by simp⟩ (utf8 cs) [] false rfl hmax).1
      cs rfl
    rw [e]; simpa using this

/-- C06: a value that is no numeral is rejected, whatever follows. -/
theorem C06_rejected (v : List Char) (hv : '\n' ∉ v) (hn : ¬ ∃ n, Numeral v n) (rest : Bytes)
    (broken : Bool) :
    readText (⟨utf8 (Spec.contentLength ++ Spec.sep ++ v ++ Spec.crlf) ++ rest, broken⟩ : Flat) =
      .invalidData := by
  have hok : (Header.mk Spec.contentLength v).Ok := ⟨by simp [Spec.contentLength], hv, contentLength_no_sep⟩
  have hb : BadLine (utf8 (Spec.contentLength ++ Spec.sep ++ v ++ Spec.crlf)) := by
    have := header_bytes hok
    exact ⟨⟨_, this.1, this.2⟩, .inr (.inr (.inr ⟨v, rfl, hn⟩))⟩
  have := C05_bad_line [] (by simp [GoodLines]) _ hb rest broken
  simpa [lines] using this

/-- Beside C06: numerals and texts that are none (2^64 - 1 is the largest). -/
example : Numeral "+007".toList 7 ∧ Numeral "18446744073709551615".toList 18446744073709551615 ∧
    (∀ s ∈ ["", "+", "-0", " 1", "1 ", "0x1", "1_0", "18446744073709551616", "++1", "٣"],
      ¬ ∃ n, Numeral s.toList n) := by
  refine ⟨parseUsize_iff.1 (by decide), parseUsize_iff.1 (by decide), ?_⟩
  intro s hs
  rw [← parseUsize_none]
  revert s; decide

/-! ### C07 -/

/-- C07: a read reports a clean end exactly if the input ends (without I/O error) after good header lines
and before their blank line. -/
theorem C07_clean_end (s : Bytes) (broken : Bool) :
    readText (⟨s, broken⟩ : Flat) = .eof ↔
      broken = false ∧ ∃ hs, GoodLines hs ∧ s = lines hs := by
  constructor
  · intro h
    obtain ⟨hs, t, hg, rfl, ht⟩ := stream_cases s
    rcases ht with ⟨r, rfl⟩ | ht | ⟨l, r, rfl, hl⟩
    · rcases declares_cases hs hg with ⟨n, hd⟩ | hno
      · rw [← List.append_assoc, readText_block hg hd] at h
        split at h
        · cases h
        split at h
        · split at h <;> cases h
        · split at h <;> cases h
      · have := C05_no_length hs hg hno r broken
        rw [List.append_assoc, h] at this
        cases this
    · rw [readText_eq, headers_lines none hg, headers_end _ ht] at h
      cases broken with
      | true => simp at h
      | false =>
        refine ⟨rfl, hs, hg, ?_⟩
        by_cases hnil : t = []
        · simp [hnil]
        · simp [hnil] at h
    · have := C05_bad_line hs hg l hl r broken
      rw [List.append_assoc, h] at this
      cases this
  · rintro ⟨rfl, hs, hg, rfl⟩
    have := headers_lines none hg [] false
    rw [List.append_nil] at this
    rw [readText_eq, this, headers_end _ (by simp)]
    simp

/-- Beside C07: the empty input, and the input cut right after a header line. -/
example : readText (⟨[], false⟩ : Flat) = .eof ∧
    readText (⟨utf8 "Content-Length: 100\r\n".toList, false⟩ : Flat) = .eof := by
  constructor
  · exact (C07_clean_end _ _).2 ⟨rfl, [], by simp [GoodLines], rfl⟩
  · refine (C07_clean_end _ _).2 ⟨rfl, [lenHeader 100], lenHeader_good (by decide), ?_⟩
    have e : "Content-Length: 100\r\n".toList =
        Spec.contentLength ++ Spec.sep ++ Nat.toDigits 10 100 ++ Spec.crlf := by decide
    rw [e]; simp [lines, Header.bytes, lenHeader]

/-! ### C08 -/

/-- C08: a read succeeds exactly on a stream that starts with a complete frame (whose length can be
allocated), returns its text, and leaves the rest. -/
theorem C08_exactly_one_frame (s r : Bytes) (broken broken' : Bool) (cs : List Char) :
    readText (⟨s, broken⟩ : Flat) = .item cs ⟨r, broken'⟩ ↔
      broken' = broken ∧ (utf8 cs).length ≤ 2 ^ 63 - 1 ∧ ∃ f, IsFrame f cs ∧ s = f ++ r := by
  constructor
  · intro h
    obtain ⟨hs, t, hg, rfl, ht⟩ := stream_cases s
    rcases ht with ⟨r', rfl⟩ | ht | ⟨l, r', rfl, hl⟩
    · rcases declares_cases hs hg with ⟨n, hd⟩ | hno
      · rw [← List.append_assoc, readText_block hg hd] at h
        split at h
        · cases h
        rename_i hmax
        split at h
        · rename_i hle
          split at h
          · cases h
          · rename_i cs' hf
            simp only [Res.item.injEq, Flat.mk.injEq] at h
            obtain ⟨rfl, rfl, rfl⟩ := h
            have hf := fromUtf8_iff.1 hf
            have hlen : (utf8 cs').length = n := by rw [← hf]; simp [hle]
            refine ⟨rfl, by rw [hlen]; rw [isizeMax] at hmax; omega, lines hs ++ blank ++ utf8 cs',
              ⟨hs, hg, by rw [hlen]; exact hd, rfl⟩, ?_⟩
            rw [← hf]; simp
        · split at h <;> cases h
      · have := C05_no_length hs hg hno r' broken
        rw [List.append_assoc, h] at this
        cases this
    · rw [readText_eq, headers_lines none hg, headers_end _ ht] at h
      cases broken <;> by_cases hnil : t = [] <;> simp [hnil] at h
    · have := C05_bad_line hs hg l hl r' broken
      rw [List.append_assoc, h] at this
      cases this
  · rintro ⟨rfl, hmax, f, ⟨hs, hg, hd, rfl⟩, rfl⟩
    exact (C04_last_length hs hg _ hd (utf8 cs) r broken' rfl hmax).1 cs rfl

/-- C08: appending bytes to a stream on which a read succeeds changes neither the text nor what is
consumed, whether the longer stream then ends or breaks. -/
theorem C08_extension (s r : Bytes) (broken broken' : Bool) (cs : List Char)
    (h : readText (⟨s, broken⟩ : Flat) = .item cs ⟨r, broken'⟩) (more : Bytes) (br : Bool) :
    readText (⟨s ++ more, br⟩ : Flat) = .item cs ⟨r ++ more, br⟩ := by
  obtain ⟨_, h1, f, h2, rfl⟩ := (C08_exactly_one_frame ..).1 h
  exact (C08_exactly_one_frame ..).2 ⟨rfl, h1, f, h2, by simp⟩

/-- Beside C08: the hypothesis is met by the stream of the example beside C04. -/
example (more : Bytes) :
    readText (⟨lines sampleHeaders ++ blank ++ [97, 98, 99] ++ [1, 2] ++ more, true⟩ : Flat) =
      .item ['a', 'b', 'c'] ⟨[1, 2] ++ more, true⟩ :=
  C08_extension _ _ false false _
    ((C04_last_length _ sampleHeaders_good 3 sampleHeaders_declares [97, 98, 99] [1, 2] false rfl
      (by decide)).1 _ (by decide)) more true

/-! ### C10 -/

/-- C10: a body that is not UTF-8 makes the read fail; a body that is UTF-8 is passed on unchanged:
the text returned is the one whose encoding is the body. -/
theorem C10_body (hs : List Header) (hg : GoodLines hs) (body rest : Bytes) (broken : Bool)
    (hd : Declares hs body.length) (hmax : body.length ≤ 2 ^ 63 - 1) :
    (¬ ValidUtf8 body ↔
      readText (⟨lines hs ++ blank ++ body ++ rest, broken⟩ : Flat) = .invalidData) ∧
    (∀ cs, body = utf8 cs ↔
      readText (⟨lines hs ++ blank ++ body ++ rest, broken⟩ : Flat) = .item cs ⟨rest, broken⟩) := by
  obtain ⟨h1, h2⟩ := C04_last_length hs hg _ hd body rest broken rfl hmax
  refine ⟨⟨h2, ?_⟩, fun cs => ⟨h1 cs, ?_⟩⟩
  · rintro h ⟨cs, hc⟩
    rw [h1 cs hc] at h; cases h
  · intro h
    by_cases hv : ValidUtf8 body
    · obtain ⟨cs', hc⟩ := hv
      rw [h1 cs' hc] at h
      cases h; exact hc
    · rw [h2 hv] at h; cases h

/-- C10: a header line that is not UTF-8 makes the read fail. -/
theorem C10_header (hs : List Header) (hg : GoodLines hs) (l : Bytes) (hl : (10 : UInt8) ∉ l)
    (hv : ¬ ValidUtf8 (l ++ [10])) (rest : Bytes) (broken : Bool) :
    readText (⟨lines hs ++ (l ++ [10]) ++ rest, broken⟩ : Flat) = .invalidData :=
  C05_bad_line hs hg _ ⟨⟨l, rfl, hl⟩, .inl hv⟩ rest broken

/-- Beside C10: a lone continuation byte and an overlong encoding. -/
example : ¬ ValidUtf8 [0x80] ∧ ¬ ValidUtf8 [0xC0, 0x80] ∧ ¬ ValidUtf8 [0xED, 0xA0, 0x80] ∧
    ValidUtf8 [0xF0, 0x9F, 0x98, 0x80] := by
  refine ⟨?_, ?_, ?_, ?_⟩
  · rw [← fromUtf8_none]; decide
  · rw [← fromUtf8_none]; decide
  · rw [← fromUtf8_none]; decide
  · exact ⟨['😀'], by decide⟩

/-! ### C09 -/

/-- The remaining source of a result replaced. -/
def Frame.Res.map (f : σ → τ) : Res σ α → Res τ α
  | .item a r => .item a (f r)
  | .eof => .eof
  | .invalidData => .invalidData
  | .unexpectedEof => .unexpectedEof
  | .ioError => .ioError
  | .panic => .panic

/-- No chunk is empty. -/
def NonEmpty (s : Chunked) : Prop := ∀ c ∈ s.chunks, c ≠ []

theorem nonEmpty_drop {s s' : Chunked} (h : NonEmpty s) (hk : ∃ k, s'.chunks = s.chunks.drop k) :
    NonEmpty s' := by
  obtain ⟨k, hk⟩ := hk
  intro c hc
  rw [hk] at hc
  exact h c (List.mem_of_mem_drop hc)

theorem headers_step [Source σ] (size : Option Nat) {s s1 : σ} {l : Bytes}
    (hr : Source.readUntil s = some (l, s1)) : headers size s = if l = [] then .eof else
      match fromUtf8 l with
      | none => .invalidData
      | some line =>
        match stripCrlf line with
        | none => .invalidData
        | some [] =>
          match size with
          | none => .invalidData
          | some n => .item n s1
        | some (c :: b) =>
          match splitSep (c :: b) with
          | none => .invalidData
          | some (name, value) =>
            if name = contentLength then
              match parseUsize value with
              | none => .invalidData
              | some n => headers (some n) s1
            else headers size s1 := by
  conv => lhs; unfold headers
  split
  · rename_i h; rw [hr] at h; cases h
  · rename_i h; rw [hr] at h; cases h; rfl

theorem headers_chunked (size : Option Nat) (s : Chunked) (hne : NonEmpty s) :
    (headers size s).map Chunked.flat = headers size s.flat ∧
      ∀ n s', headers size s = .item n s' → NonEmpty s' := by
  have hflat : Source.readUntil s.flat =
      (Source.readUntil s).map (fun p => (p.1, p.2.flat)) :=
    (Chunked.readUntil_flat s.broken s.buf s.chunks hne).symm
  cases hr : Source.readUntil s with
  | none =>
    rw [hr] at hflat
    simp only [Option.map_none] at hflat
    constructor
    · unfold headers
      split
      · split
        · rfl
        · rename_i h; rw [hflat] at h; cases h
      · rename_i h; rw [hr] at h; cases h
    · intro n s' h
      unfold headers at h
      split at h
      · cases h
      · rename_i h1; rw [hr] at h1; cases h1
  | some p =>
    obtain ⟨l, s1⟩ := p
    rw [hr] at hflat
    simp only [Option.map_some] at hflat
    have hne1 : NonEmpty s1 := nonEmpty_drop hne (Chunked.readUntil_size _ _ _ hr).2
    rw [headers_step size hr, headers_step size hflat]
    by_cases hl : l = []
    · simp [hl, Res.map]
    · have hlt : Source.size s1 < Source.size s := Source.size_lt hr hl
      have ih := fun sz => headers_chunked sz s1 hne1
      simp only [hl, if_false]
      cases fromUtf8 l with
      | none => simp [Res.map]
      | some line =>
        simp only
        cases stripCrlf line with
        | none => simp [Res.map]
        | some b =>
          cases b with
          | nil =>
            cases size with
            | none => simp [Res.map]
            | some n => simp [Res.map]; exact hne1
          | cons c b =>
            simp only
            cases splitSep (c :: b) with
            | none => simp [Res.map]
            | some nv =>
              simp only
              split
              · cases parseUsize nv.2 with
                | none => simp [Res.map]
                | some n => exact ih (some n)
              · exact ih size
termination_by Source.size s

theorem readText_chunked (s : Chunked) (hne : NonEmpty s) :
    (readText s).map Chunked.flat = readText s.flat ∧
      ∀ cs s', readText s = .item cs s' → NonEmpty s' := by
  obtain ⟨h1, h2⟩ := headers_chunked none s hne
  unfold readText
  cases hh : headers none s with
  | item n s1 =>
    rw [hh] at h1
    simp only [Res.map] at h1
    rw [← h1]
    have hne1 := h2 n s1 hh
    have hx : Source.readExact n s1.flat = (Source.readExact n s1).map Chunked.flat :=
      (Chunked.readExact_flat s1.broken n s1.buf s1.chunks hne1).symm
    simp only
    split
    · simp [Res.map]
    · rw [hx]
      cases hr : Source.readExact n s1 with
      | ok b s2 =>
        simp only [Exact.map]
        have hne2 : NonEmpty s2 := nonEmpty_drop hne1 (Chunked.readExact_size _ _ _ _ hr).2
        cases fromUtf8 b with
        | none => simp [Res.map]
        | some cs => simp [Res.map]; exact hne2
      | eof => simp [Exact.map, Res.map]
      | ioError => simp [Exact.map, Res.map]
  | eof => rw [hh] at h1; simp only [Res.map] at h1; rw [← h1]; simp [Res.map]
  | invalidData => rw [hh] at h1; simp only [Res.map] at h1; rw [← h1]; simp [Res.map]
  | unexpectedEof => rw [hh] at h1; simp only [Res.map] at h1; rw [← h1]; simp [Res.map]
  | ioError => rw [hh] at h1; simp only [Res.map] at h1; rw [← h1]; simp [Res.map]
  | panic => rw [hh] at h1; simp only [Res.map] at h1; rw [← h1]; simp [Res.map]

theorem readMsg_chunked [Ext] [FloatText] (s : Chunked) (hne : NonEmpty s) :
    (readMsg s).map Chunked.flat = readMsg s.flat ∧
      ∀ m s', readMsg s = .item m s' → NonEmpty s' := by
  obtain ⟨h1, h2⟩ := readText_chunked s hne
  unfold readMsg
  cases hh : readText s with
  | item cs s1 =>
    rw [hh] at h1
    simp only [Res.map] at h1
    rw [← h1]
    have hne1 := h2 cs s1 hh
    simp only
    cases (Text.parse cs).bind Message.dec with
    | none => simp [Res.map]
    | some m => simp [Res.map]; exact hne1
  | eof => rw [hh] at h1; simp only [Res.map] at h1; rw [← h1]; simp [Res.map]
  | invalidData => rw [hh] at h1; simp only [Res.map] at h1; rw [← h1]; simp [Res.map]
  | unexpectedEof => rw [hh] at h1; simp only [Res.map] at h1; rw [← h1]; simp [Res.map]
  | ioError => rw [hh] at h1; simp only [Res.map] at h1; rw [← h1]; simp [Res.map]
  | panic => rw [hh] at h1; simp only [Res.map] at h1; rw [← h1]; simp [Res.map]

/-- Unfolding of reading until the end. -/
theorem readAll_eq [Ext] [FloatText] [Source σ] (s : σ) : readAll s =
    match readMsg s with
    | .item m s' => (m :: (readAll s').1, (readAll s').2)
    | .eof => ([], .eof)
    | .invalidData => ([], .invalidData)
    | .unexpectedEof => ([], .unexpectedEof)
    | .ioError => ([], .ioError)
    | .panic => ([], .panic) := by
  conv => lhs; unfold readAll
  split <;> rename_i h <;> simp [h]

theorem readAll_chunked [Ext] [FloatText] (s : Chunked) (hne : NonEmpty s) :
    readAll s = readAll s.flat := by
  obtain ⟨h1, h2⟩ := readMsg_chunked s hne
  rw [readAll_eq s, readAll_eq s.flat, ← h1]
  cases hh : readMsg s with
  | item m s1 =>
    have := readMsg_size s hh
    have ih := readAll_chunked s1 (h2 m s1 hh)
    simp [Res.map, ih]
  | eof => rfl
  | invalidData => rfl
  | unexpectedEof => rfl
  | ioError => rfl
  | panic => rfl
termination_by Source.size s

/-- C09: the messages read from a stream, and how reading ends, do not depend on how the bytes are
split into non-empty chunks. -/
theorem C09_chunks [Ext] [FloatText] (bytes : Bytes) (broken : Bool) (chunks : List Bytes)
    (hne : ∀ c ∈ chunks, c ≠ []) (h : chunks.flatten = bytes) :
    readAll (⟨[], chunks, broken⟩ : Chunked) = readAll (⟨bytes, broken⟩ : Flat) := by
  rw [readAll_chunked ⟨[], chunks, broken⟩ hne, Chunked.flat]
  simp [h]

/-- C09: hence two ways to split the same bytes are indistinguishable. -/
theorem C09_two_splits [Ext] [FloatText] (broken : Bool) (a b : List Bytes)
    (ha : ∀ c ∈ a, c ≠ []) (hb : ∀ c ∈ b, c ≠ []) (h : a.flatten = b.flatten) :
    readAll (⟨[], a, broken⟩ : Chunked) = readAll (⟨[], b, broken⟩ : Chunked) := by
  rw [C09_chunks _ broken a ha h, C09_chunks _ broken b hb rfl]

/-- C09: the same for one text: what is read and what is left. -/
theorem C09_text (s : Chunked) (hne : ∀ c ∈ s.chunks, c ≠ []) (cs : List Char) :
    (∃ s' : Chunked, readText s = .item cs s' ∧ s'.flat.bytes = r ∧ s'.broken = b) ↔
      readText (⟨s.buf ++ s.chunks.flatten, s.broken⟩ : Flat) = .item cs ⟨r, b⟩ := by
  have h1 := (readText_chunked s hne).1
  have e : s.flat = ⟨s.buf ++ s.chunks.flatten, s.broken⟩ := rfl
  rw [← e, ← h1]
  constructor
  · rintro ⟨s', h, rfl, rfl⟩
    rw [h]; rfl
  · intro h
    cases hh : readText s with
    | item cs' s' =>
      rw [hh] at h
      simp only [Res.map, Res.item.injEq] at h
      obtain ⟨rfl, h⟩ := h
      exact ⟨s', rfl, by rw [h], by have := congrArg Flat.broken h; exact this⟩
    | _ => rw [hh] at h; simp [Res.map] at h

/-- Beside C09: one byte at a time against all at once. -/
example [Ext] [FloatText] (bytes : Bytes) (hb : bytes ≠ []) :
    readAll (⟨[], bytes.map (fun b => [b]), false⟩ : Chunked) =
      readAll (⟨[], [bytes], false⟩ : Chunked) :=
  C09_two_splits false _ _ (by simp) (by simp [hb]) (by
    have : (bytes.map fun b => [b]).flatten = bytes := by
      clear hb
      induction bytes with
      | nil => rfl
      | cons b bs ih => simp [ih]
    simp [this])

end Bsp
