/-
C88: the bytes of a stream determine the messages.  C89: what is written has no control characters
apart from the two line ends of the header.  C90: JSON-RPC batches.
-/
import Verif.Props.Wire

namespace Bsp
open Frame Json
open Spec (Header lines blank GoodLines Declares keys)

/-! ### C88 -/

section
variable [Ext] [FloatText]

/-- What is needed to recognise a written message (without it being readable): its numbers are ones
that serde_json can hold, and its text fits into memory.
Specification about bsp-server/src/message.rs:42-49. -/
structure Spec.Sized (m : Message) : Prop where
  numbers : Spec.Numbers m.enc
  size : (write m).length ≤ 2 ^ 63 - 1

omit [Ext] [FloatText] in
private theorem cutStop_ne_panic (l k : Nat) (b : Bool) : Spec.cutStop l k b ≠ .panic := by
  unfold Spec.cutStop; repeat' split
  all_goals simp

/-- What reading the frame of any message gives, readable or not. -/
theorem readMsg_write {m : Message} (h : Spec.Sized m) (rest : Bytes) (br : Bool) :
    (∃ m', Message.dec m.enc = some m' ∧ readMsg (⟨write m ++ rest, br⟩ : Flat) = .item m' ⟨rest, br⟩) ∨
    readMsg (⟨write m ++ rest, br⟩ : Flat) = .invalidData := by
  rw [readMsg, readText_write m h.size]
  simp only [msgText]
  by_cases hd : Spec.nest m.enc ≤ 127
  · rw [Text.parse_print hd h.numbers, Option.bind_some]
    cases hm : Message.dec m.enc with
    | none => exact .inr rfl
    | some m' => exact .inl ⟨m', rfl, rfl⟩
  · rw [Text.parse_print_deep (by omega) h.numbers]
    exact .inr rfl

/-- C03 for messages of any kind, also those that are not read back as what they were (C13): wherever the
stream is cut, and whether it then ends or breaks, each message read is what the frame of the message at its
place decodes to, and then there is an end or an error (never a panic). -/
theorem C03_any (ms : List Message) (h : ∀ m ∈ ms, Spec.Sized m) (k : Nat) (br : Bool) :
    ∃ n got stop, readAll (⟨(ms.flatMap write).take k, br⟩ : Flat) = (got, stop) ∧
      got.map some = (ms.take n).map (fun m => Message.dec m.enc) ∧ stop ≠ .panic := by
  have key : ∀ (a : List Message) (t : Bytes) (stop : Stop), (∀ m ∈ a, Spec.Sized m) →
      readAll (⟨t, br⟩ : Flat) = ([], stop) → stop ≠ .panic →
      ∃ n got stop', readAll (⟨a.flatMap write ++ t, br⟩ : Flat) = (got, stop') ∧
        got.map some = (a.take n).map (fun m => Message.dec m.enc) ∧ stop' ≠ .panic := by
    intro a t stop ha ht hs
    induction a with
    | nil => exact ⟨0, [], stop, by simpa using ht, rfl, hs⟩
    | cons m a ih =>
      rw [List.flatMap_cons, List.append_assoc, readAll_eq]
      rcases readMsg_write (ha m (by simp)) (a.flatMap write ++ t) br with ⟨m', h1, h2⟩ | h2
      · obtain ⟨n, got, stop', h3, h4, h5⟩ := ih (fun x hx => ha x (by simp [hx]))
        exact ⟨n + 1, m' :: got, stop', by simp [h2, h3], by simp [h1, h4], h5⟩
      · exact ⟨0, [], .invalidData, by simp [h2], rfl, by simp⟩
  rcases cut_cases ms k with ⟨h1, _⟩ | ⟨a, m, b, i, rfl, hi, h2⟩
  · rw [h1]
    have := key ms [] (if br then .ioError else .eof) h (by
      rw [readAll_eq, readMsg]
      cases br with
      | false =>
        have : readText (⟨[], false⟩ : Flat) = .eof :=
          (C07_clean_end _ _).2 ⟨rfl, [], by simp [GoodLines], rfl⟩
        simp [this]
      | true => rw [readText_eq, headers_end none (by simp)]; rfl) (by cases br <;> simp)
    simpa using this
  · rw [h2]
    obtain ⟨n, got, stop, h3, h4, h5⟩ := key a ((write m).take i) (Spec.cutStop (headerLength (msgText m)) i br)
      (fun x hx => h x (by simp [hx])) (by
        have := readText_cut (msgText m) (Nat.le_trans (text_le_write m) (h m (by simp)).size) i hi br
        rw [readAll_eq, readMsg, write, this, headerLength_eq]
        cases Spec.cutStop (lines [lenHeader (utf8 (msgText m)).length]).length i br <;> rfl)
      (cutStop_ne_panic _ _ _)
    refine ⟨min n a.length, got, stop, h3, ?_, h5⟩
    rw [h4, List.take_append_of_le_length (by omega)]
    congr 1
    rcases Nat.le_total n a.length with hl | hl
    · rw [Nat.min_eq_left hl]
    · rw [Nat.min_eq_right hl, List.take_length, List.take_of_length_le hl]

/-- C03 for any input: more input, or another way in which it ends, changes nothing in the messages read
before. -/
theorem C03_more (s more : Bytes) (b b' : Bool) :
    (readAll (⟨s, b⟩ : Flat)).1 <+: (readAll (⟨s ++ more, b'⟩ : Flat)).1 := by
  rw [readAll_eq (⟨s, b⟩ : Flat)]
  cases hr : readMsg (⟨s, b⟩ : Flat) with
  | item m s' =>
    have hsz := readMsg_size _ hr
    obtain ⟨r, b1⟩ := s'
    have h2 : readMsg (⟨s ++ more, b'⟩ : Flat) = .item m ⟨r ++ more, b'⟩ := by
      rw [readMsg] at hr ⊢
      cases ht : readText (⟨s, b⟩ : Flat) with
      | item cs t =>
        obtain ⟨t1, t2⟩ := t
        rw [ht] at hr
        rw [C08_extension s t1 b t2 cs ht more b']
        simp only at hr ⊢
        split at hr <;> simp_all
      | _ => simp [ht] at hr
    rw [readAll_eq (⟨s ++ more, b'⟩ : Flat), h2]
    simp only [List.cons_prefix_cons, true_and]
    have := C03_more r more b1 b'
    exact this
  | _ => simp
termination_by s.length
decreasing_by simpa [Source.size] using hsz

/-- C88: if one stream of written messages is the beginning of another, then its messages are the
first messages of the other, as JSON values, and what follows is the rest of them. -/
theorem C88_prefix (ms ns : List Message) (hm : ∀ m ∈ ms, Spec.Sized m) (hn : ∀ n ∈ ns, Spec.Sized n)
    (s : Bytes) (h : ms.flatMap write ++ s = ns.flatMap write) :
    ∃ n1 n2, ns = n1 ++ n2 ∧ ms.map Message.enc = n1.map Message.enc ∧ s = n2.flatMap write := by
  induction ms generalizing ns with
  | nil => exact ⟨[], ns, rfl, rfl, by simpa using h⟩
  | cons m ms ih =>
    have h1 := readText_write m (hm m (by simp)).size (ms.flatMap write ++ s) false
    cases ns with
    | nil =>
      have e : write m ++ (ms.flatMap write ++ s) = [] := by simpa using h
      have h2 : readText (⟨[], false⟩ : Flat) = .eof :=
        (C07_clean_end _ _).2 ⟨rfl, [], by simp [GoodLines], rfl⟩
      rw [e, h2] at h1
      cases h1
    | cons n ns =>
      have h2 := readText_write n (hn n (by simp)).size (ns.flatMap write) false
      have e : write m ++ (ms.flatMap write ++ s) = write n ++ ns.flatMap write := by simpa using h
      rw [e, h2] at h1
      simp only [Res.item.injEq, Flat.mk.injEq] at h1
      obtain ⟨n1, n2, rfl, h3, h4⟩ := ih ns (fun x hx => hm x (by simp [hx]))
        (fun x hx => hn x (by simp [hx])) h1.2.1.symm
      refine ⟨n :: n1, n2, rfl, ?_, h4⟩
      have := C39_injective _ _ (hn n (by simp)).numbers (hm m (by simp)).numbers h1.1
      simp [this, h3]

/-- C88: the same bytes are the same messages, as JSON values. -/
theorem C88_same (ms ns : List Message) (hm : ∀ m ∈ ms, Spec.Sized m) (hn : ∀ n ∈ ns, Spec.Sized n) :
    ms.flatMap write = ns.flatMap write ↔ ms.map Message.enc = ns.map Message.enc := by
  constructor
  · intro h
    obtain ⟨n1, n2, rfl, h1, h2⟩ := C88_prefix ms ns hm hn [] (by simpa using h)
    have : n2 = [] := by
      cases n2 with
      | nil => rfl
      | cons n n2 =>
        have h3 : write n ++ n2.flatMap write = [] := by simpa using h2.symm
        obtain ⟨t, b, h4, _⟩ := C11_header n
        rw [h4] at h3
        have e : "Content-Length: ".toList = 'C' :: "ontent-Length: ".toList := by decide
        rw [e] at h3
        simp [utf8_cons] at h3
    simp [this, h1]
  · intro h
    have : ∀ xs : List Message, xs.flatMap write = (xs.map Message.enc).flatMap
        (fun j => frame (Text.print j)) := by
      intro xs
      induction xs with
      | nil => rfl
      | cons x xs ih => simp only [List.flatMap_cons, List.map_cons, ih]; rfl
    rw [this, this, h]
end

section
variable [LawfulExt] [FloatText]

/-- C88: messages that can be read back are the same, up to the documented normalisation, if their bytes are. -/
theorem C88_messages (ms ns : List Message) (hm : ∀ m ∈ ms, Spec.WireOk m ∧ Spec.Sized m)
    (hn : ∀ n ∈ ns, Spec.WireOk n ∧ Spec.Sized n) (h : ms.flatMap write = ns.flatMap write) :
    ms.map Message.norm = ns.map Message.norm := by
  have h1 := (C88_same ms ns (fun m hx => (hm m hx).2) (fun m hx => (hn m hx).2)).1 h
  have h2 : ∀ xs : List Message, (∀ m ∈ xs, Spec.WireOk m ∧ Spec.Sized m) →
      (xs.map Message.norm).map some = (xs.map Message.enc).map Message.dec := by
    intro xs hx
    simp only [List.map_map]
    apply List.map_congr_left
    intro m hmem
    simp [C12_tree m (hx m hmem).1]
  have h3 := h2 ms hm
  rw [h1, ← h2 ns hn] at h3
  exact (List.map_inj_right (by simp)).1 h3

/-- C88: exactly the same messages if nothing in them is a present null or a reserved custom kind. -/
theorem C88_messages_plain (ms ns : List Message)
    (hm : ∀ m ∈ ms, Spec.WireOk m ∧ Spec.Sized m ∧ Spec.PlainMessage m)
    (hn : ∀ n ∈ ns, Spec.WireOk n ∧ Spec.Sized n ∧ Spec.PlainMessage n) :
    ms.flatMap write = ns.flatMap write ↔ ms = ns := by
  constructor
  · intro h
    have h1 := C88_messages ms ns (fun m hx => ⟨(hm m hx).1, (hm m hx).2.1⟩)
      (fun m hx => ⟨(hn m hx).1, (hn m hx).2.1⟩) h
    have h2 : ∀ xs : List Message, (∀ m ∈ xs, Spec.WireOk m ∧ Spec.Sized m ∧ Spec.PlainMessage m) →
        xs.map Message.norm = xs := by
      intro xs hx
      conv => rhs; rw [← List.map_id xs]
      exact List.map_congr_left fun m hmem => m.norm_plain (hx m hmem).2.2
    rwa [h2 ms hm, h2 ns hn] at h1
  · rintro rfl; rfl
end

/-! ### C89 -/

section
variable [FloatText]

omit [FloatText] in
theorem digits_visible {ds : List Char} (h : Gram.Digits ds) : ∀ c ∈ ds, 32 ≤ c.toNat := by
  intro c hc
  have h1 : (48 : Nat) ≤ c.toNat := (h.2 c hc).1
  omega

theorem num_visible {cs : List Char} {j : Json} (h : Gram.Num cs j) : ∀ c ∈ cs, 32 ≤ c.toNat := by
  cases h with
  | nat h1 _ => exact digits_visible h1.1
  | neg h1 _ _ =>
    intro c hc
    rcases List.mem_cons.1 hc with rfl | hc
    · decide
    · exact digits_visible h1.1 c hc
  | float hs hi hf he _ _ _ =>
    intro c hc
    simp only [List.mem_append] at hc
    rcases hc with ((hc | hc) | hc) | hc
    · rcases hs with rfl | rfl
      · cases hc
      · rw [List.mem_singleton.1 hc]; decide
    · exact digits_visible hi.1 c hc
    · rcases hf with rfl | ⟨ds, hd, rfl⟩
      · cases hc
      · rcases List.mem_cons.1 hc with rfl | hc
        · decide
        · exact digits_visible hd c hc
    · rcases he with rfl | ⟨e, sg, ds, h1, h2, hd, rfl⟩
      · cases hc
      · simp only [List.mem_cons, List.mem_append] at hc
        rcases hc with rfl | hc | hc
        · rcases h1 with rfl | rfl <;> decide
        · rcases h2 with rfl | rfl | rfl
          · cases hc
          · rw [List.mem_singleton.1 hc]; decide
          · rw [List.mem_singleton.1 hc]; decide
        · exact digits_visible hd c hc

omit [FloatText] in
theorem hexDigit_visible (n : Nat) (h : n < 16) : 32 ≤ (Text.hexDigit n).toNat := by
  have : ∀ n : Fin 16, 32 ≤ (Text.hexDigit n).toNat := by decide
  exact this ⟨n, h⟩

omit [FloatText] in
theorem escChar_visible (c : Char) : ∀ d ∈ Text.escChar c, 32 ≤ d.toNat := by
  intro d hd
  unfold Text.escChar at hd
  have hc : c.toNat < 32 → 32 ≤ (Text.hexDigit (c.toNat / 16)).toNat ∧
      32 ≤ (Text.hexDigit (c.toNat % 16)).toNat := fun h =>
    ⟨hexDigit_visible _ (by omega), hexDigit_visible _ (by omega)⟩
  repeat' split at hd
  case isFalse.isFalse.isFalse.isFalse.isFalse.isFalse.isFalse.isFalse h =>
    rw [List.mem_singleton.1 hd]; omega
  case isFalse.isFalse.isFalse.isFalse.isFalse.isFalse.isFalse.isTrue h =>
    simp only [List.mem_cons, List.not_mem_nil, or_false] at hd
    rcases hd with rfl | rfl | rfl | rfl | rfl | rfl
    · decide
    · decide
    · decide
    · decide
    · exact (hc h).1
    · exact (hc h).2
  all_goals
    simp only [List.mem_cons, List.not_mem_nil, or_false] at hd
    rcases hd with rfl | rfl <;> decide

omit [FloatText] in
theorem printStr_visible (s : String) : ∀ c ∈ Text.printStr s, 32 ≤ c.toNat := by
  intro c hc
  simp only [Text.printStr, List.mem_cons, List.mem_append, List.mem_flatMap, List.not_mem_nil, or_false] at hc
  rcases hc with rfl | ⟨d, _, hd⟩ | rfl
  · decide
  · exact escChar_visible d c hd
  · decide

mutual
theorem print_visible : ∀ (j : Json), Spec.Numbers j → ∀ c ∈ Text.print j, 32 ≤ c.toNat
  | .null, _, c, hc => by
    have : ∀ c ∈ ['n', 'u', 'l', 'l'], 32 ≤ c.toNat := by decide
    exact this c (by simpa only [Text.print] using hc)
  | .bool true, _, c, hc => by
    have : ∀ c ∈ ['t', 'r', 'u', 'e'], 32 ≤ c.toNat := by decide
    exact this c (by simpa only [Text.print] using hc)
  | .bool false, _, c, hc => by
    have : ∀ c ∈ ['f', 'a', 'l', 's', 'e'], 32 ≤ c.toNat := by decide
    exact this c (by simpa only [Text.print] using hc)
  | .int i, h, c, hc => by
    simp only [Text.print, Spec.Numbers] at *
    exact num_visible (Text.printInt_spec h.1 h.2) c hc
  | .float f, h, c, hc => by
    simp only [Text.print, Spec.Numbers] at *
    exact num_visible h c hc
  | .str s, _, c, hc => by
    simp only [Text.print] at hc
    exact printStr_visible s c hc
  | .arr xs, h, c, hc => by
    simp only [Text.print, Spec.Numbers, List.mem_cons, List.mem_append, List.not_mem_nil, or_false] at *
    rcases hc with rfl | hc | rfl
    · decide
    · exact printElems_visible xs h c hc
    · decide
  | .obj ms, h, c, hc => by
    simp only [Text.print, Spec.Numbers, List.mem_cons, List.mem_append, List.not_mem_nil, or_false] at *
    rcases hc with rfl | hc | rfl
    · decide
    · exact printMembers_visible ms h c hc
    · decide
theorem printElems_visible : ∀ (xs : List Json), Spec.NumbersList xs → ∀ c ∈ Text.printElems xs, 32 ≤ c.toNat
  | [], _, c, hc => by simp [Text.printElems] at hc
  | [x], h, c, hc => by
    simp only [Text.printElems, Spec.NumbersList] at *
    exact print_visible x h.1 c hc
  | x :: y :: xs, h, c, hc => by
    rw [Spec.NumbersList] at h
    simp only [Text.printElems, List.mem_append, List.mem_cons] at hc
    rcases hc with hc | rfl | hc
    · exact print_visible x h.1 c hc
    · decide
    · exact printElems_visible (y :: xs) h.2 c hc
theorem printMembers_visible : ∀ (ms : Members), Spec.NumbersMembers ms →
    ∀ c ∈ Text.printMembers ms, 32 ≤ c.toNat
  | [], _, c, hc => by simp [Text.printMembers] at hc
  | [(k, x)], h, c, hc => by
    simp only [Text.printMembers, Spec.NumbersMembers, List.mem_append, List.mem_cons] at *
    rcases hc with hc | rfl | hc
    · exact printStr_visible k c hc
    · decide
    · exact print_visible x h.1 c hc
  | (k, x) :: m :: ms, h, c, hc => by
    rw [Spec.NumbersMembers] at h
    simp only [Text.printMembers, List.mem_append, List.mem_cons] at hc
    rcases hc with (hc | rfl | hc) | rfl | hc
    · exact printStr_visible k c hc
    · decide
    · exact print_visible x h.1 c hc
    · decide
    · exact printMembers_visible (m :: ms) h.2 c hc
end

omit [FloatText] in
theorem ofNat_visible {n : Nat} (h : n < 256) (h1 : 32 ≤ n) : 32 ≤ UInt8.ofNat n := by
  have h2 : (32 : UInt8).toNat = 32 := rfl
  rw [UInt8.le_iff_toNat_le, h2, UInt8.toNat_ofNat']
  omega

omit [FloatText] in
theorem char_visible {c : Char} (h : 32 ≤ c.toNat) : ∀ b ∈ String.utf8EncodeChar c, 32 ≤ b := by
  intro b hb
  have h' : 32 ≤ c.val.toNat := h
  unfold String.utf8EncodeChar at hb
  simp only at hb
  split at hb
  · rw [List.mem_singleton.1 hb]
    exact ofNat_visible (by omega) (by omega)
  · split at hb
    · simp only [List.mem_cons, List.not_mem_nil, or_false] at hb
      rcases hb with rfl | rfl <;> exact ofNat_visible (by omega) (by omega)
    · split at hb
      · simp only [List.mem_cons, List.not_mem_nil, or_false] at hb
        rcases hb with rfl | rfl | rfl <;> exact ofNat_visible (by omega) (by omega)
      · simp only [List.mem_cons, List.not_mem_nil, or_false] at hb
        rcases hb with rfl | rfl | rfl | rfl <;> exact ofNat_visible (by omega) (by omega)

omit [FloatText] in
theorem utf8_visible {cs : List Char} (h : ∀ c ∈ cs, 32 ≤ c.toNat) : ∀ b ∈ utf8 cs, 32 ≤ b := by
  intro b hb
  obtain ⟨c, hc, hb⟩ := List.mem_flatMap.1 hb
  exact char_visible (h c hc) b hb

/-- C89: the text of a value contains no control character, whatever its strings contain. -/
theorem C89_text (j : Json) (h : Spec.Numbers j) : ∀ c ∈ Text.print j, 32 ≤ c.toNat :=
  print_visible j h

variable [Ext]

/-- C89: a written message consists of two lines that end with CR LF, the first one the length header and the
second one empty, and a body without any line end or other control byte. -/
theorem C89_frame (m : Message) (h : Spec.Numbers m.enc) :
    ∃ header body, write m = header ++ [13, 10] ++ [13, 10] ++ body ∧
      (∀ b ∈ header, 32 ≤ b) ∧ ∀ b ∈ body, 32 ≤ b := by
  refine ⟨utf8 ("Content-Length: ".toList ++ Nat.toDigits 10 (utf8 (msgText m)).length), utf8 (msgText m), ?_,
    ?_, utf8_visible (C89_text _ h)⟩
  · obtain ⟨t, b, h1, h2, h3⟩ := C11_header m
    subst h2 h3
    have e : "\r\n\r\n".toList = ['\r', '\n', '\r', '\n'] := by decide
    have e2 : utf8 ['\r', '\n', '\r', '\n'] = [13, 10] ++ [13, 10] := by decide
    rw [h1, e, utf8_append, e2]
    simp
  · apply utf8_visible
    intro c hc
    rcases List.mem_append.1 hc with hc | hc
    · have : ∀ c ∈ "Content-Length: ".toList, 32 ≤ c.toNat := by decide
      exact this c hc
    · exact digits_visible (Text.toDigits_int _).1 c hc

omit [FloatText] [Ext] in
theorem count_visible {bs : Bytes} (h : ∀ b ∈ bs, 32 ≤ b) : bs.count 10 = 0 ∧ bs.count 13 = 0 := by
  constructor <;> refine List.count_eq_zero.2 fun hm => absurd (h _ hm) (by decide)

/-- C89: a stream of messages has two line feeds and two carriage returns per message, and no other control byte. -/
theorem C89_stream (ms : List Message) (h : ∀ m ∈ ms, Spec.Numbers m.enc) :
    (ms.flatMap write).count 10 = 2 * ms.length ∧ (ms.flatMap write).count 13 = 2 * ms.length ∧
      ∀ b ∈ ms.flatMap write, b = 10 ∨ b = 13 ∨ 32 ≤ b := by
  induction ms with
  | nil => simp
  | cons m ms ih =>
    obtain ⟨i1, i2, i3⟩ := ih fun x hx => h x (by simp [hx])
    obtain ⟨hd, bd, e, h1, h2⟩ := C89_frame m (h m (by simp))
    have c1 := count_visible h1
    have c2 := count_visible h2
    simp only [List.flatMap_cons, List.count_append, i1, i2, e, c1, c2, List.length_cons]
    refine ⟨?_, ?_, ?_⟩
    · have : List.count (10 : UInt8) [13, 10] = 1 := by decide
      omega
    · have : List.count (13 : UInt8) [13, 10] = 1 := by decide
      omega
    · intro b hb
      rcases List.mem_append.1 hb with hb | hb
      · simp only [List.append_assoc, List.mem_append, List.mem_cons, List.not_mem_nil, or_false] at hb
        rcases hb with hb | (rfl | rfl) | (rfl | rfl) | hb
        · exact .inr (.inr (h1 b hb))
        · exact .inr (.inl rfl)
        · exact .inl rfl
        · exact .inr (.inl rfl)
        · exact .inl rfl
        · exact .inr (.inr (h2 b hb))
      · exact i3 b hb
end

/-! ### C90 -/

section
variable [Ext]

/-- C90: a JSON array is accepted as a message in one case only, as a response given by position. -/
theorem C90_array (xs : List Json) (m : Message) :
    Message.dec (.arr xs) = some m ↔
      ∃ i a b r, xs = [i, a, b] ∧ m = .response r ∧ Spec.IdOf i r.id ∧ Spec.OptElem a Spec.AnyValue r.result ∧
        Spec.OptElem b Spec.ErrOf r.error := by
  have hq : ¬ ∃ q, Spec.UsableRequest (.arr xs) q := by
    rintro ⟨q, ms, _, _, _, _, h, _⟩; cases h
  have hn : ¬ ∃ n, Spec.UsableNotification (.arr xs) n := by
    rintro ⟨q, ms, _, h, _⟩; cases h
  cases m with
  | request r =>
    rw [C14_request]
    constructor
    · intro h; exact absurd ⟨r, h⟩ hq
    · rintro ⟨_, _, _, _, _, h, _⟩; cases h
  | notification n =>
    rw [C14_notification]
    constructor
    · rintro ⟨_, _, h⟩; exact absurd ⟨n, h⟩ hn
    · rintro ⟨_, _, _, _, _, h, _⟩; cases h
  | response r =>
    rw [C14_response]
    constructor
    · rintro ⟨_, ⟨_, _, h, _⟩ | ⟨i, a, b, h, h1, h2, h3⟩⟩
      · cases h
      · cases h; exact ⟨i, a, b, r, rfl, rfl, h1, h2, h3⟩
    · rintro ⟨i, a, b, _, rfl, h, h1, h2, h3⟩
      cases h
      exact ⟨hq, .inr ⟨i, a, b, rfl, h1, h2, h3⟩⟩

/-- C90: a JSON-RPC batch, that is an array of objects, is rejected as a whole, whatever the objects are. -/
theorem C90_batch (xs : List Json) (h : ∀ x ∈ xs, ∃ ms, x = .obj ms) : Message.dec (.arr xs) = none := by
  cases hd : Message.dec (.arr xs) with
  | none => rfl
  | some m =>
    obtain ⟨i, a, b, r, rfl, _, hi, _⟩ := (C90_array xs m).1 hd
    obtain ⟨ms, rfl⟩ := h i (by simp)
    cases hi

variable [FloatText]

/-- C90: reading a frame whose text is a batch, in any spelling, fails; nothing of it is delivered. -/
theorem C90_read (hs : List Header) (hg : GoodLines hs) (cs : List Char) (hd : Declares hs (utf8 cs).length)
    (hmax : (utf8 cs).length ≤ 2 ^ 63 - 1) (d : Nat) (xs : List Json) (hx : ∀ x ∈ xs, ∃ ms, x = .obj ms)
    (ht : Gram.JsonText d cs (.arr xs)) (rest : Bytes) (br : Bool) :
    readMsg (⟨lines hs ++ blank ++ utf8 cs ++ rest, br⟩ : Flat) = .invalidData := by
  have h1 := ((C10_body hs hg (utf8 cs) rest br hd hmax).2 cs).1 rfl
  rw [readMsg, h1]
  cases hp : Text.parse cs with
  | none => simp [hp]
  | some k =>
    have := Text.jsonText_unique ht (Text.parse_iff.1 hp)
    subst this
    simp [hp, C90_batch xs hx]
end

/-! ### Concrete cases -/

section
attribute [local instance] Ext.sample FloatText.sample

theorem sample_sized : ∀ m ∈ sampleMessages, Spec.WireOk m ∧ Spec.Sized m := fun m h =>
  ⟨(sample_ok m h).1, (sample_ok m h).2.numbers, (sample_ok m h).2.size⟩

/-- Beside C03: a shutdown request, which is no `Spec.WireOk` message, among the messages, and the stream cut
anywhere, is never read as something else than the response it is always read as (C13). -/
example (k : Nat) (br : Bool) :
    ∃ n, (readAll (⟨([Message.request (.shutdown (.i32 3)), .notification .exit].flatMap write).take k, br⟩ : Flat)).1 =
      [Message.response ⟨.i32 3, none, none⟩, .notification .exit].take n := by
  have hs : ∀ m ∈ [Message.request (.shutdown (.i32 3)), .notification .exit], Spec.Sized m := by
    intro m hm
    simp only [List.mem_cons, List.not_mem_nil, or_false] at hm
    rcases hm with rfl | rfl
    · exact ⟨by simp [Message.enc, Message.members, Request.members, Spec.Numbers, Spec.NumbersMembers,
        RequestId.enc, encI32], by decide⟩
    · exact ⟨by simp [Message.enc, Message.members, Notification.members, Spec.Numbers,
        Spec.NumbersMembers], by decide⟩
  obtain ⟨n, got, stop, h1, h2, _⟩ := C03_any _ hs k br
  refine ⟨n, ?_⟩
  rw [h1]
  have e1 := C13_violated (.i32 3) "" (.shutdown (.i32 3)) (by simp)
  have e2 : Message.dec (Message.enc (.notification .exit)) = some (.notification .exit) :=
    (C27_notification .exit (by intro m v h; cases h)).2 trivial
  have h3 : got.map some = ([Message.response ⟨.i32 3, none, none⟩, .notification .exit].take n).map some := by
    rw [h2, List.map_take, List.map_take]
    simp [e1, e2]
  exact (List.map_inj_right (fun _ _ h => by simpa using h)).1 h3

/-- Beside C88: the samples are recognised at the beginning of a longer stream. -/
example (s : Bytes) (ns : List Message) (hn : ∀ n ∈ ns, Spec.Sized n)
    (h : sampleMessages.flatMap write ++ s = ns.flatMap write) :
    ∃ n1 n2, ns = n1 ++ n2 ∧ sampleMessages.map Message.enc = n1.map Message.enc ∧ s = n2.flatMap write :=
  C88_prefix _ ns (fun m hm => (sample_sized m hm).2) hn s h

/-- Beside C88: a shutdown request and the response it is misread as are different on the wire. -/
example : [Message.request (.shutdown (.i32 3))].flatMap write ≠
    [Message.response { id := .i32 3, result := none, error := none }].flatMap write := by
  intro h
  have hs : ∀ m ∈ [Message.request (.shutdown (.i32 3))], Spec.Sized m := by
    intro m hm
    rw [List.mem_singleton.1 hm]
    exact ⟨by simp [Message.enc, Message.members, Request.members, Spec.Numbers, Spec.NumbersMembers,
      RequestId.enc, encI32], by decide⟩
  have hr : ∀ m ∈ [Message.response { id := .i32 3, result := none, error := none }], Spec.Sized m := by
    intro m hm
    rw [List.mem_singleton.1 hm]
    exact ⟨by simp [Message.enc, Message.members, Response.members, Spec.Numbers, Spec.NumbersMembers,
      RequestId.enc, encI32, fld, skipNone], by decide⟩
  have := (C88_same _ _ hs hr).1 h
  simp [Message.enc, Message.members, Request.members, Response.members, fld, skipNone] at this

/-- Beside C88: the samples are told apart from any other messages. -/
example (ns : List Message) (hn : ∀ n ∈ ns, Spec.WireOk n ∧ Spec.Sized n)
    (h : ns.map Message.norm ≠ sampleMessages.map Message.norm) :
    ns.flatMap write ≠ sampleMessages.flatMap write := fun e =>
  h (C88_messages ns _ hn sample_sized e)

/-- Beside C88: the two samples without values that could be normalised, in either order. -/
example : [Message.notification .exit, .notification .initialized].flatMap write ≠
    [Message.notification .initialized, .notification .exit].flatMap write := by
  have hs : ∀ m, m = Message.notification .exit ∨ m = .notification .initialized →
      Spec.WireOk m ∧ Spec.Sized m ∧ Spec.PlainMessage m := by
    rintro m (rfl | rfl)
    · exact ⟨trivial, ⟨by simp [Message.enc, Message.members, Notification.members, Spec.Numbers,
        Spec.NumbersMembers], by decide⟩, trivial⟩
    · exact ⟨trivial, ⟨by simp [Message.enc, Message.members, Notification.members, Spec.Numbers,
        Spec.NumbersMembers], by decide⟩, trivial⟩
  intro h
  have := (C88_messages_plain _ _ (fun m hm => hs m (by simpa using hm))
    (fun m hm => hs m (by simp at hm; exact hm.symm))).1 h
  cases this

/-- Beside C89: strings with line ends and NUL, as data and as a name. -/
example : ∀ c ∈ Text.print (.obj [("a\nb", .str "\r\n\x00\x1fé"), ("f", .float ⟨7⟩)]), 32 ≤ c.toNat :=
  C89_text _ (by simp [Spec.Numbers, Spec.NumbersMembers, FloatText.sample_ok])

example : Text.print (.obj [("a\nb", .str "\r\n\x00\x1fé")]) =
    "{\"a\\nb\":\"\\r\\n\\u0000\\u001fé\"}".toList := by decide

example : (sampleMessages.flatMap write).count 10 = 6 ∧ (sampleMessages.flatMap write).count 13 = 6 :=
  have h := C89_stream sampleMessages fun m hm => (sample_ok m hm).2.numbers
  ⟨h.1, h.2.1⟩

/-- Beside C90: a batch of a shutdown request and an exit notification; the empty batch; an array that is
accepted, as a response. -/
example : Message.dec (.arr [.obj [("id", .int 1), ("method", .str "build/shutdown"), ("params", .null)],
    .obj [("method", .str "build/exit")]]) = none ∧ Message.dec (.arr []) = none ∧
    Message.dec (.arr [.int 1, .null, .null]) = some (.response { id := .i32 1, result := none, error := none }) :=
  ⟨C90_batch _ (by simp), C90_batch _ (by simp),
    (C90_array _ _).2 ⟨_, _, _, _, rfl, rfl, .num 1 (by decide), .inl ⟨rfl, rfl⟩, .inl ⟨rfl, rfl⟩⟩⟩

/-- Beside C90: the batch `[{}]`, framed. -/
example : readMsg (⟨lines [lenHeader 4] ++ blank ++ utf8 "[{}]".toList ++ [1], false⟩ : Flat) =
    .invalidData :=
  C90_read _ (lenHeader_good (by decide)) "[{}]".toList (lenHeader_declares (n := 4) (by decide)) (by decide) 127
    [.obj []] (by simp) (Text.parse_iff.1 (by decide)) [1] false
end

end Bsp
