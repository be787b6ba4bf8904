/-
Properties of whole messages on the byte level: C02, C03, C11, C12, C39, C40.
-/
import Verif.JsonPrint
import Verif.Props.Framing
import Verif.Props.RoundTrip

namespace Bsp
open Frame Json
open Spec (Header lines blank GoodLines Declares keys)

/-! ### C39, C40: JSON text -/

/-- C39: a printed value is parsed back to itself, whatever its strings contain, if it nests at most
127 levels (and its numbers are ones that serde_json can hold). -/
theorem C39_text [FloatText] (j : Json) (hd : Spec.nest j ≤ 127) (hn : Spec.Numbers j) :
    Text.parse (Text.print j) = some j := Text.parse_print hd hn

/-- C39: the printed text is a JSON text in the sense of RFC 8259, at any depth, and denotes only that
value. -/
theorem C39_grammar [FloatText] (j : Json) (hn : Spec.Numbers j) (k : Json) (d : Nat) :
    Gram.JsonText (Spec.nest j) (Text.print j) j ∧ (Gram.JsonText d (Text.print j) k → k = j) := by
  have h : Gram.JsonText (Spec.nest j) (Text.print j) j :=
    ⟨[], _, [], Text.ws_nil, Text.print_spec _ j (Nat.le_refl _) hn, Text.ws_nil, by simp⟩
  exact ⟨h, fun hk => Text.jsonText_unique hk h⟩

/-- C39: two values have the same text only if they are equal. -/
theorem C39_injective [FloatText] (j k : Json) (hj : Spec.Numbers j) (hk : Spec.Numbers k)
    (h : Text.print j = Text.print k) : j = k := by
  have h1 := (C39_grammar j hj j 0).1
  rw [h] at h1
  exact (C39_grammar k hk j _).2 h1

/-- Nested arrays: `deep n` nests `n` levels. -/
def deep : Nat → Json
  | 0 => .null
  | n + 1 => .arr [deep n]

theorem deep_nest (n : Nat) : Spec.nest (deep n) = n := by
  induction n with
  | zero => rfl
  | succ n ih => simp [deep, Spec.nest, Spec.nestList, ih]

theorem deep_numbers [FloatText] (n : Nat) : Spec.Numbers (deep n) := by
  induction n with
  | zero => simp [deep, Spec.Numbers]
  | succ n ih => simp [deep, Spec.Numbers, Spec.NumbersList, ih]

/-- Beside C39: quotes, control and non-ASCII characters, extreme numbers, repeated names. -/
example [FloatText] : Text.parse (Text.print (.obj [("a\"\n\u0001é", .arr [.int (-2 ^ 63), .int (2 ^ 64 - 1)]),
    ("a", .null), ("a", .bool true)])) = some (.obj [("a\"\n\u0001é", .arr [.int (-2 ^ 63), .int (2 ^ 64 - 1)]),
    ("a", .null), ("a", .bool true)]) :=
  C39_text _ (by decide) (by simp [Spec.Numbers, Spec.NumbersMembers, Spec.NumbersList])

/-- C40: a text that denotes a value nesting 128 or more levels is rejected, so that reading it
fails. -/
theorem C40_deep_text [FloatText] (cs : List Char) (j : Json) (d : Nat) (h : Gram.JsonText d cs j)
    (hd : 128 ≤ Spec.nest j) : Text.parse cs = none := by
  cases hp : Text.parse cs with
  | none => rfl
  | some k =>
    have h2 := Text.parse_iff.1 hp
    have := Text.jsonText_unique h h2
    subst this
    obtain ⟨_, _, _, _, hv, _, _⟩ := h2
    have := Text.val_nest hv
    omega

section
variable [LawfulExt] [FloatText]

/-- Messages that can be carried: at most 127 levels, numbers that serde_json can hold, and a text
that fits into memory. -/
structure Spec.Carried [Ext] (m : Message) : Prop where
  nest : Spec.nest m.enc ≤ 127
  numbers : Spec.Numbers m.enc
  size : (write m).length ≤ 2 ^ 63 - 1

omit [LawfulExt] in
theorem text_le_write [Ext] (m : Message) : (utf8 (msgText m)).length ≤ (write m).length := by
  simp [write, frame]

omit [LawfulExt] in
theorem readText_write [Ext] (m : Message) (h : (write m).length ≤ 2 ^ 63 - 1) (rest : Bytes)
    (br : Bool) :
    readText (⟨write m ++ rest, br⟩ : Flat) = .item (msgText m) ⟨rest, br⟩ :=
  C01_frame (msgText m) (Nat.le_trans (text_le_write m) h) rest br

/-- C40: a message that nests 128 or more levels is written, but reading what was written fails. -/
theorem C40_deep_message (m : Message) (hd : 128 ≤ Spec.nest m.enc) (hn : Spec.Numbers m.enc)
    (hs : (write m).length ≤ 2 ^ 63 - 1) (rest : Bytes) (br : Bool) :
    readMsg (⟨write m ++ rest, br⟩ : Flat) = .invalidData := by
  rw [readMsg, readText_write m hs]
  simp only [msgText, Text.parse_print_deep hd hn, Option.bind_none]

omit [LawfulExt] [FloatText] in
theorem nest_custom [Ext] (s : String) (v : Value) :
    Spec.nest (Message.enc (.notification (.custom s v))) = Spec.nest v.json + 1 := by
  simp [Message.enc, Message.members, Notification.members, Spec.nest, Spec.nestMembers]

/-! ### C12 on the wire -/

/-- C12: a wire-representable message that can be carried is read back from the bytes written for it,
up to the documented normalisation, and reading stops where it ends. -/
theorem C12_wire (m : Message) (hw : Spec.WireOk m) (hc : Spec.Carried m) (rest : Bytes) (br : Bool) :
    readMsg (⟨write m ++ rest, br⟩ : Flat) = .item m.norm ⟨rest, br⟩ := by
  rw [readMsg, readText_write m hc.size]
  simp only [msgText, Text.parse_print hc.nest hc.numbers, Option.bind_some, C12_tree m hw]

/-- C12: exactly the same message if nothing in it is a present null or a reserved custom kind. -/
theorem C12_wire_plain (m : Message) (hw : Spec.WireOk m) (hp : Spec.PlainMessage m)
    (hc : Spec.Carried m) (rest : Bytes) (br : Bool) :
    readMsg (⟨write m ++ rest, br⟩ : Flat) = .item m ⟨rest, br⟩ := by
  rw [C12_wire m hw hc, m.norm_plain hp]

/-! ### C02 -/

/-- C02: messages written one after the other are read back in order, followed by a clean end. -/
theorem C02_stream (ms : List Message) (h : ∀ m ∈ ms, Spec.WireOk m ∧ Spec.Carried m) :
    readAll (⟨ms.flatMap write, false⟩ : Flat) = (ms.map Message.norm, .eof) := by
  induction ms with
  | nil =>
    have : readText (⟨[], false⟩ : Flat) = .eof :=
      (C07_clean_end _ _).2 ⟨rfl, [], by simp [GoodLines], rfl⟩
    rw [readAll_eq, readMsg]
    simp [this]
  | cons m ms ih =>
    obtain ⟨hw, hc⟩ := h m (by simp)
    rw [List.flatMap_cons, readAll_eq, C12_wire m hw hc]
    simp [ih (fun x hx => h x (List.mem_cons_of_mem _ hx))]

/-- C02: the same when the bytes arrive in arbitrary non-empty pieces. -/
theorem C02_stream_chunked (ms : List Message) (h : ∀ m ∈ ms, Spec.WireOk m ∧ Spec.Carried m)
    (chunks : List Bytes) (hne : ∀ c ∈ chunks, c ≠ []) (hf : chunks.flatten = ms.flatMap write) :
    readAll (⟨[], chunks, false⟩ : Chunked) = (ms.map Message.norm, .eof) := by
  rw [C09_chunks _ false chunks hne hf, C02_stream ms h]

/-! ### C03 -/

/-- How a read of a frame fails that is cut after `k` of its bytes: `l` is the length of the
header line. -/
def Spec.cutStop (l k : Nat) (broken : Bool) : Stop :=
  if broken then .ioError
  else if k = 0 ∨ k = l then .eof
  else if k < l ∨ k = l + 1 then .invalidData
  else .unexpectedEof

omit [LawfulExt] [FloatText] in
/-- A frame cut before its end. -/
theorem readText_cut (cs : List Char) (hmax : (utf8 cs).length ≤ 2 ^ 63 - 1) (k : Nat)
    (hk : k < (frame cs).length) (br : Bool) :
    readText (⟨(frame cs).take k, br⟩ : Flat) =
      match Spec.cutStop (lines [lenHeader (utf8 cs).length]).length k br with
      | .eof => .eof
      | .invalidData => .invalidData
      | .unexpectedEof => .unexpectedEof
      | .ioError => .ioError
      | .panic => .panic := by
  have hlt : (utf8 cs).length < 2 ^ 64 := by omega
  have hg := lenHeader_good hlt
  have hd := lenHeader_declares hlt
  rw [frame_eq] at hk ⊢
  generalize hL : lines [lenHeader (utf8 cs).length] = L at hk ⊢
  have hb := header_bytes (hg _ (List.mem_singleton.2 rfl)).1
  have hL' : L = utf8 ((lenHeader (utf8 cs).length).name ++ Spec.sep ++
      (lenHeader (utf8 cs).length).value ++ ['\r']) ++ [10] := by
    rw [← hL, ← hb.1]; simp [lines]
  generalize utf8 ((lenHeader (utf8 cs).length).name ++ Spec.sep ++
      (lenHeader (utf8 cs).length).value ++ ['\r']) = a at hL' hb
  have hbl : blank.length = 2 := rfl
  have hLlen : L.length = a.length + 1 := by rw [hL']; simp
  simp only [List.length_append, hbl] at hk
  by_cases h1 : k < L.length
  · -- inside the header line
    have e : (L ++ blank ++ utf8 cs).take k = a.take k := by
      rw [hL', List.append_assoc, List.append_assoc, List.take_append_of_le_length (by omega)]
    have hn : (10 : UInt8) ∉ a.take k := fun h => hb.2 (List.mem_of_mem_take h)
    rw [e, readText_eq, headers_end _ hn]
    cases br with
    | true => simp [Spec.cutStop]
    | false =>
      by_cases h0 : k = 0
      · simp [Spec.cutStop, h0]
      · have : a.take k ≠ [] := by
          intro h
          have := congrArg List.length h
          simp at this
          rcases this with h | h
          · exact h0 h
          · simp [h] at hLlen; omega
        have h2 : k ≠ L.length := by omega
        simp [Spec.cutStop, h0, h1, h2, this]
  · obtain ⟨i, rfl⟩ : ∃ i, k = L.length + i := ⟨k - L.length, by omega⟩
    have e : (L ++ blank ++ utf8 cs).take (L.length + i) = L ++ (blank ++ utf8 cs).take i := by
      rw [List.append_assoc, List.take_append, List.take_of_length_le (by omega)]
      simp
    have hLl : L ≠ [] := by intro h; simp [h] at hLlen
    have hLpos : 0 < L.length := List.length_pos_iff.2 hLl
    rw [e]
    by_cases h2 : i < 2
    · have hn : (10 : UInt8) ∉ (blank ++ utf8 cs).take i := by
        rcases (by omega : i = 0 ∨ i = 1) with rfl | rfl
        · simp
        · simp [blank]
      rw [← hL, readText_eq, headers_lines none hg, headers_end _ hn, hL]
      cases br with
      | true => simp [Spec.cutStop]
      | false =>
        rcases (by omega : i = 0 ∨ i = 1) with rfl | rfl
        · simp [Spec.cutStop]
        · simp [Spec.cutStop, blank, hLl]
    · obtain ⟨j, rfl⟩ : ∃ j, i = 2 + j := ⟨i - 2, by omega⟩
      have e2 : (blank ++ utf8 cs).take (2 + j) = blank ++ (utf8 cs).take j := by
        simp [blank, Nat.add_comm 2 j]
      rw [e2, ← List.append_assoc, ← hL, readText_block hg hd, hL]
      have h3 : ¬ isizeMax < (utf8 cs).length := by rw [isizeMax]; omega
      have h4 : ¬ (utf8 cs).length ≤ ((utf8 cs).take j).length := by
        rw [List.length_take]; omega
      rw [if_neg h3, if_neg h4]
      cases br with
      | true => simp [Spec.cutStop]
      | false =>
        have h5 : ¬ (L.length + (2 + j) = 0 ∨ L.length + (2 + j) = L.length) := by omega
        have h6 : ¬ (L.length + (2 + j) < L.length ∨ L.length + (2 + j) = L.length + 1) := by omega
        simp only [Spec.cutStop, if_neg h5, if_neg h6, Bool.false_eq_true, if_false]

/-- The length of the header line written before a text. -/
def headerLength (cs : List Char) : Nat :=
  (utf8 ("Content-Length: ".toList ++ Nat.toDigits 10 (utf8 cs).length ++ "\r\n".toList)).length

omit [LawfulExt] [FloatText] in
theorem headerLength_eq (cs : List Char) :
    headerLength cs = (lines [lenHeader (utf8 cs).length]).length := by
  have e : "Content-Length: ".toList = Spec.contentLength ++ Spec.sep := by decide
  have e2 : "\r\n".toList = Spec.crlf := by decide
  rw [headerLength, e, e2]
  simp [lines, Header.bytes, lenHeader]

/-- C03: a stream cut inside the frame of message `m` yields exactly the messages before it.  How
reading ends is determined by the place: an I/O error if the connection broke, a clean end if the cut is at the
frame boundary or right after the header line, otherwise invalid data (inside the header block) or an unexpected
end (inside the body). -/
theorem C03_cut (ms : List Message) (h : ∀ m ∈ ms, Spec.WireOk m ∧ Spec.Carried m) (m : Message)
    (hm : (write m).length ≤ 2 ^ 63 - 1) (k : Nat) (hk : k < (write m).length) (br : Bool) :
    readAll (⟨ms.flatMap write ++ (write m).take k, br⟩ : Flat) =
      (ms.map Message.norm, Spec.cutStop (headerLength (msgText m)) k br) := by
  induction ms with
  | nil =>
    have := readText_cut (msgText m) (Nat.le_trans (text_le_write m) hm) k hk br
    rw [List.flatMap_nil, List.nil_append, readAll_eq, readMsg, write, this, headerLength_eq]
    cases Spec.cutStop (lines [lenHeader (utf8 (msgText m)).length]).length k br <;> rfl
  | cons m' ms ih =>
    obtain ⟨hw, hc⟩ := h m' (by simp)
    rw [List.flatMap_cons, List.append_assoc, readAll_eq, C12_wire m' hw hc]
    simp [ih (fun x hx => h x (List.mem_cons_of_mem _ hx))]

omit [LawfulExt] in
/-- Every cut of a concatenation of frames is at its end or inside one frame. -/
theorem cut_cases [Ext] (ms : List Message) (k : Nat) :
    ((ms.flatMap write).take k = ms.flatMap write ∧ (ms.flatMap write).length ≤ k) ∨
    ∃ a m b i, ms = a ++ m :: b ∧ i < (write m).length ∧
      (ms.flatMap write).take k = a.flatMap write ++ (write m).take i := by
  induction ms generalizing k with
  | nil => left; simp
  | cons m ms ih =>
    by_cases hk : k < (write m).length
    · right
      refine ⟨[], m, ms, k, rfl, hk, ?_⟩
      rw [List.flatMap_cons, List.take_append_of_le_length (by omega)]
      simp
    · obtain ⟨i, rfl⟩ : ∃ i, k = (write m).length + i := ⟨k - (write m).length, by omega⟩
      have e : ((m :: ms).flatMap write).take ((write m).length + i) =
          write m ++ (ms.flatMap write).take i := by
        rw [List.flatMap_cons, List.take_append, List.take_of_length_le (by omega)]; simp
      rcases ih i with ⟨h1, h2⟩ | ⟨a, m', b, j, rfl, hj, h2⟩
      · left
        rw [e, h1]
        refine ⟨by simp, ?_⟩
        rw [List.flatMap_cons, List.length_append]; omega
      · right
        refine ⟨m :: a, m', b, j, rfl, hj, ?_⟩
        rw [e, h2]; simp

/-- C03: cutting the stream of any list of written messages after any number of bytes, whether the
stream then ends or breaks, yields a prefix of the messages and then an end or an error (never a
panic). -/
theorem C03_prefix (ms : List Message) (h : ∀ m ∈ ms, Spec.WireOk m ∧ Spec.Carried m) (k : Nat)
    (br : Bool) :
    ∃ n stop, readAll (⟨(ms.flatMap write).take k, br⟩ : Flat) =
      ((ms.take n).map Message.norm, stop) ∧ stop ≠ .panic := by
  have hs : ∀ l k b, Spec.cutStop l k b ≠ .panic := by
    intro l k b; unfold Spec.cutStop; repeat' split
    all_goals simp
  rcases cut_cases ms k with ⟨h1, h3⟩ | ⟨a, m, b, i, rfl, hi, h2⟩
  · refine ⟨ms.length, if br then .ioError else .eof, ?_, by cases br <;> simp⟩
    rw [h1, List.take_length]
    cases br with
    | false => simp [C02_stream ms h]
    | true =>
      simp only [if_true]
      clear h1 h3
      induction ms with
      | nil =>
        rw [List.flatMap_nil, readAll_eq, readMsg, readText_eq, headers_end none (by simp)]
        rfl
      | cons m ms ih =>
        obtain ⟨hw, hc⟩ := h m (by simp)
        rw [List.flatMap_cons, readAll_eq, C12_wire m hw hc]
        simp [ih (fun x hx => h x (List.mem_cons_of_mem _ hx))]
  · refine ⟨a.length, _, ?_, hs (headerLength (msgText m)) i br⟩
    rw [h2, C03_cut a (fun x hx => h x (by simp [hx])) m (h m (by simp)).2.size i hi br]
    simp

end

/-! ### C11 -/

section
variable [Ext] [FloatText]

/-- The members a message may be written with after `jsonrpc`. -/
def Spec.MessageMembers : Message → Members → Prop
  | .request r, ms => ∃ ps, ms = ("id", r.id.enc) :: ("method", .str r.method) :: ps ∧
      (ps = [] ∨ ∃ p, ps = [("params", p)])
  | .response r, ms => ∃ rs es, ms = ("id", r.id.enc) :: (rs ++ es) ∧
      (match r.result with | none => rs = [] | some v => rs = [("result", v.json)]) ∧
      (match r.error with | none => es = [] | some e => es = [("error", e.enc)])
  | .notification n, ms => ∃ ps, ms = ("method", .str n.method) :: ps ∧
      (ps = [] ∨ ∃ p, ps = [("params", p)])

omit [FloatText] in
theorem members_shape (m : Message) : Spec.MessageMembers m m.members := by
  cases m with
  | request r =>
    cases r <;> try exact ⟨_, rfl, .inr ⟨_, rfl⟩⟩
    · exact ⟨_, rfl, .inl rfl⟩
    · exact ⟨_, rfl, .inl rfl⟩
    · exact ⟨_, rfl, .inl rfl⟩
    · rename_i id s v
      refine ⟨_, rfl, ?_⟩
      by_cases hv : v.isNull = true
      · left; simp [hv]
      · right; exact ⟨v.json, by simp [hv]⟩
  | response r =>
    refine ⟨_, _, rfl, ?_, ?_⟩
    · cases r.result <;> rfl
    · cases r.error <;> rfl
  | notification n =>
    cases n <;> first | exact ⟨_, rfl, .inr ⟨_, rfl⟩⟩ | exact ⟨_, rfl, .inl rfl⟩

omit [FloatText] in
theorem members_keys (m : Message) (ms : Members) (h : Spec.MessageMembers m ms) :
    ms ≠ [] ∧ "jsonrpc" ∉ keys ms ∧ (keys ms).Nodup := by
  cases m with
  | request r => obtain ⟨ps, rfl, rfl | ⟨p, rfl⟩⟩ := h <;> simp [keys]
  | response r =>
    obtain ⟨rs, es, rfl, h1, h2⟩ := h
    split at h1 <;> split at h2 <;> subst h1 <;> subst h2 <;> simp [keys]
  | notification r => obtain ⟨ps, rfl, rfl | ⟨p, rfl⟩⟩ := h <;> simp [keys]

/-- C11: what is written is the length header, the blank line, and as many bytes as announced, the
UTF-8 encoding of a text. -/
theorem C11_header (m : Message) : ∃ text body,
    write m = utf8 ("Content-Length: ".toList ++ Nat.toDigits 10 body.length ++ "\r\n\r\n".toList) ++
      body ∧ body = utf8 text ∧ text = msgText m := by
  have e : "\r\n\r\n".toList = ['\r', '\n', '\r', '\n'] := by decide
  exact ⟨msgText m, utf8 (msgText m), by rw [write, frame, e], rfl, rfl⟩

/-- C11: that text starts with the `jsonrpc` member. -/
theorem C11_prefix (m : Message) : "{\"jsonrpc\":\"2.0\",".toList <+: msgText m := by
  obtain ⟨hne, _, _⟩ := members_keys m _ (members_shape m)
  rw [msgText, Message.enc]
  cases hm : m.members with
  | nil => exact absurd hm hne
  | cons x xs =>
    have e : "{\"jsonrpc\":\"2.0\",".toList =
      '{' :: (Text.printStr "jsonrpc" ++ ':' :: Text.printStr "2.0" ++ [',']) := by decide
    rw [e]
    simp only [Text.print, Text.printMembers]
    refine ⟨Text.printMembers (x :: xs) ++ ['}'], ?_⟩
    simp

/-- C11: that text is a JSON object whose first member is `"jsonrpc":"2.0"`, followed by the members of the
message; no name occurs twice. -/
theorem C11_object (m : Message) (hn : Spec.Numbers m.enc) : ∃ ms d,
    Gram.JsonText d (msgText m) (.obj (("jsonrpc", .str "2.0") :: ms)) ∧
      Spec.MessageMembers m ms ∧ "jsonrpc" ∉ keys ms ∧ (keys ms).Nodup := by
  obtain ⟨_, h2, h3⟩ := members_keys m _ (members_shape m)
  exact ⟨m.members, _, (C39_grammar m.enc hn m.enc 0).1, members_shape m, h2, h3⟩

end

/-! ### Concrete cases -/

/-- A concrete text form of doubles for examples: the bits as a decimal number, with a fraction. -/
@[reducible] def FloatText.sample : FloatText where
  print f := Nat.toDigits 10 f.bits.toNat ++ ['.', '0']
  parse cs := some ⟨UInt64.ofNat (Nat.ofDigitChars 10 cs.dropLast.dropLast 0)⟩

section
attribute [local instance] Ext.sample FloatText.sample

theorem FloatText.sample_ok (f : F64) : Spec.FloatOk f := by
  have h := @Gram.Num.float _ [] (Nat.toDigits 10 f.bits.toNat) ['.', '0'] [] f (.inl rfl)
    (Text.toDigits_int _) (.inr ⟨['0'], ⟨by simp, by decide⟩, rfl⟩) (.inl rfl) (by simp) (by simp) (by
      have e : Nat.toDigits 10 f.bits.toNat ++ ['.', '0'] =
        (Nat.toDigits 10 f.bits.toNat ++ ['.']) ++ ['0'] := by simp
      simp only [FloatText.parse, List.nil_append, List.append_nil]
      rw [e, List.dropLast_concat, List.dropLast_concat, Nat.ofDigitChars_ten_toDigits]
      simp)
  simp only [List.nil_append, List.append_nil] at h
  exact h

/-- A custom request with text params, a response with a result, and an exit notification. -/
def sampleMessages : List Message :=
  [.request (.custom (.str "7") "x/y" (.ofJson (.str "é\"\n"))),
   .response { id := .i32 3, result := some (.ofJson (.arr [.int (-1), .float ⟨5⟩])), error := none },
   .notification .exit]

theorem sample_ok : ∀ m ∈ sampleMessages, Spec.WireOk m ∧ Spec.Carried m := by
  intro m hm
  simp only [sampleMessages, List.mem_cons, List.not_mem_nil, or_false] at hm
  rcases hm with rfl | rfl | rfl
  · exact ⟨⟨by decide, fun h => by cases congrArg Subtype.val h⟩, by decide,
      by simp [Message.enc, Message.members, Request.members, Spec.Numbers, Spec.NumbersMembers, RequestId.enc,
        Value.ofJson, Value.json, Value.isNull, canon], by decide⟩
  · exact ⟨trivial, by decide, by
      simp [Message.enc, Message.members, Response.members, Spec.Numbers, Spec.NumbersMembers, Spec.NumbersList,
        fld, skipNone, RequestId.enc, encI32, Value.ofJson, Value.json, canon, canonList, FloatText.sample_ok], by decide⟩
  · exact ⟨trivial, by decide, by
      simp [Message.enc, Message.members, Notification.members, Spec.Numbers, Spec.NumbersMembers], by decide⟩

/-- Beside C12, C02. -/
example (rest : Bytes) : readMsg (⟨write (.notification .exit) ++ rest, false⟩ : Flat) =
    .item (.notification .exit) ⟨rest, false⟩ :=
  have := sample_ok (.notification .exit) (by simp [sampleMessages])
  C12_wire_plain _ this.1 trivial this.2 rest false

example : readAll (⟨sampleMessages.flatMap write, false⟩ : Flat) =
    (sampleMessages.map Message.norm, .eof) := C02_stream _ sample_ok

/-- Beside C03: cut in the header line, after it, in the blank line, in the body of the message that
follows the samples; and broken there. -/
example (m : Message) (hm : m ∈ sampleMessages) :
    readAll (⟨sampleMessages.flatMap write ++ (write m).take 5, false⟩ : Flat) =
      (sampleMessages.map Message.norm, .invalidData) ∧
    readAll (⟨sampleMessages.flatMap write ++ (write m).take 20, false⟩ : Flat) =
      (sampleMessages.map Message.norm, .eof) ∧
    readAll (⟨sampleMessages.flatMap write ++ (write m).take 30, false⟩ : Flat) =
      (sampleMessages.map Message.norm, .unexpectedEof) ∧
    readAll (⟨sampleMessages.flatMap write ++ (write m).take 30, true⟩ : Flat) =
      (sampleMessages.map Message.norm, .ioError) := by
  have hc := (sample_ok m hm).2.size
  have key : 30 < (write m).length ∧ headerLength (msgText m) = 20 := by
    simp only [sampleMessages, List.mem_cons, List.not_mem_nil, or_false] at hm
    rcases hm with rfl | rfl | rfl <;> decide
  have := fun k (hk : k ≤ 30) br => C03_cut _ sample_ok m hc k (by omega) br
  rw [key.2] at this
  exact ⟨this 5 (by decide) false, this 20 (by decide) false, this 30 (by decide) false,
    this 30 (by decide) true⟩

set_option maxRecDepth 20000 in
/-- Beside C40: a custom notification whose params nest 127 levels. -/
example : readMsg (⟨write (.notification (.custom "x" (.ofJson (deep 127)))), false⟩ : Flat) =
    .invalidData := by
  have e : canon (deep 127) = deep 127 := by
    have : ∀ n, canon (deep n) = deep n := by
      intro n
      induction n with
      | zero => rfl
      | succ n ih => simp [deep, ih]
    exact this 127
  have := C40_deep_message (.notification (.custom "x" (.ofJson (deep 127))))
    (by rw [nest_custom]; simp only [Value.ofJson, Value.json, e, deep_nest]; decide)
    (by
      have := deep_numbers 127
      simp [Message.enc, Message.members, Notification.members, Spec.Numbers, Spec.NumbersMembers,
        Value.ofJson, Value.json, e, this])
    (by decide) [] false
  simpa using this

end

end Bsp
