/-
Framing: `read_msg_text`, `Message::read`, `Message::write` (bsp-server/src/message.rs:31-91), over an
abstract buffered byte source with two instances: a flat byte list, and a list of chunks as delivered
one by one by the operating system.
-/
import Verif.JsonText
import Verif.Message

namespace Bsp

/-- The bytes read and written by bsp-server/src/message.rs:42-49, 58-91. -/
abbrev Bytes := List UInt8

/-- UTF-8 (the encoding of a Rust `String`). `as_bytes`, bsp-server/src/message.rs:46. -/
def utf8 (cs : List Char) : Bytes := cs.flatMap String.utf8EncodeChar

/-- `String::from_utf8` (message.rs:90) and the check made by `BufRead::read_line` (message.rs:64). -/
def fromUtf8 (b : Bytes) : Option (List Char) := b.toByteArray.utf8Decode?.map Array.toList

namespace Frame

/-- Result of one read. `io::Error`s are reduced to their kind; `panic` is the capacity overflow
of `Vec::resize` (message.rs:86).  The error texts and the source after a failure are not modelled:
the reader threads (transporter.rs:30-43, 64-76) do not read again after a failure. -/
inductive Res (σ α : Type) where
  | item (a : α) (rest : σ)
  | eof
  | invalidData
  | unexpectedEof
  | ioError
  | panic
deriving Repr, DecidableEq

/-- Result of `Read::read_exact`. The call of bsp-server/src/message.rs:88. -/
inductive Exact (σ : Type) where
  | ok (b : Bytes) (rest : σ)
  | eof
  | ioError

/-- A `BufRead` (message.rs:32, 58): its two operations that are used.  `size` bounds what can still
be read; it only serves termination. -/
class Source (σ : Type) where
  /-- `read_until(b'\n')`, the byte part of `read_line`; `none` is an I/O error -/
  readUntil : σ → Option (Bytes × σ)
  /-- `read_exact` on a buffer of that length -/
  readExact : Nat → σ → Exact σ
  size : σ → Nat
  size_lt : ∀ {s l s'}, readUntil s = some (l, s') → l ≠ [] → size s' < size s
  size_le : ∀ {n s b s'}, readExact n s = .ok b s' → size s' ≤ size s

/-- `str::parse::<usize>` after the optional sign: digits only, no overflow of 64 bits.
message.rs:79 (std `from_str_radix`). -/
def digitsVal : List Char → Nat → Option Nat
  | [], acc => some acc
  | c :: cs, acc =>
    if Text.isDigit c = true then
      if acc * 10 + (c.toNat - 48) < 2 ^ 64 then digitsVal cs (acc * 10 + (c.toNat - 48)) else none
    else none

/-- `str::parse::<usize>`: message.rs:79.  The empty text and a lone `+` are errors; `-` is not a
digit for an unsigned type. -/
def parseUsize (cs : List Char) : Option Nat :=
  match cs with
  | [] => none
  | c :: r =>
    if c = '+' then (if r = [] then none else digitsVal r 0)
    else digitsVal (c :: r) 0

/-- `splitn(2, ": ")`: the parts before and after the first separator; `none` if there is only one
part. message.rs:73-77. -/
def splitSep : List Char → Option (List Char × List Char)
  | [] => none
  | c :: r =>
    if c = ':' ∧ r.head? = some ' ' then some ([], r.tail)
    else (splitSep r).map fun p => (c :: p.1, p.2)

/-- `ends_with("\r\n")` and removal of these two characters. message.rs:67-70. -/
def stripCrlf (cs : List Char) : Option (List Char) :=
  match cs.reverse with
  | a :: b :: r => if a = '\n' ∧ b = '\r' then some r.reverse else none
  | _ => none

/-- message.rs:78 -/
def contentLength : List Char := "Content-Length".toList

/-- The header loop. message.rs:62-82; the exit of the loop together with message.rs:84. -/
def headers [Source σ] (size : Option Nat) (s : σ) : Res σ Nat :=
  match h : Source.readUntil s with
  | none => .ioError
  | some (l, s') =>
    if hl : l = [] then .eof
    else
      match fromUtf8 l with
      | none => .invalidData
      | some line =>
        match stripCrlf line with
        | none => .invalidData
        | some [] =>
          match size with
          | none => .invalidData
          | some n => .item n s'
        | some (c :: b) =>
          match splitSep (c :: b) with
          | none => .invalidData
          | some (name, value) =>
            if name = contentLength then
              match parseUsize value with
              | none => .invalidData
              | some n => headers (some n) s'
            else headers size s'
termination_by Source.size s
decreasing_by all_goals exact Source.size_lt h hl

/-- The largest allocation, `isize::MAX` on a 64-bit platform.
Limit of `buf.resize`, bsp-server/src/message.rs:87. -/
def isizeMax : Nat := 2 ^ 63 - 1

/-- `read_msg_text`: message.rs:58-91. -/
def readText [Source σ] (s : σ) : Res σ (List Char) :=
  match headers none s with
  | .item n s' =>
    if isizeMax < n then .panic
    else match Source.readExact n s' with
      | .ok b s'' =>
        match fromUtf8 b with
        | none => .invalidData
        | some cs => .item cs s''
      | .eof => .unexpectedEof
      | .ioError => .ioError
  | .eof => .eof
  | .invalidData => .invalidData
  | .unexpectedEof => .unexpectedEof
  | .ioError => .ioError
  | .panic => .panic

/-- `Message::read`: message.rs:32-40.  A text that serde_json rejects becomes an `io::Error` of kind
`InvalidData` or `UnexpectedEof`; the model always says `invalidData`. -/
def readMsg [Ext] [FloatText] [Source σ] (s : σ) : Res σ Message :=
  match readText s with
  | .item cs s' =>
    match (Text.parse cs).bind Message.dec with
    | none => .invalidData
    | some m => .item m s'
  | .eof => .eof
  | .invalidData => .invalidData
  | .unexpectedEof => .unexpectedEof
  | .ioError => .ioError
  | .panic => .panic

/-- The framing of a text. message.rs:45-46. -/
def frame (cs : List Char) : Bytes :=
  utf8 ("Content-Length: ".toList ++ Nat.toDigits 10 (utf8 cs).length ++ ['\r', '\n', '\r', '\n']) ++
    utf8 cs

/-- The text of a message. message.rs:44 (`serde_json::to_string(&JsonRpc::from(self))`). -/
def msgText [Ext] [FloatText] (m : Message) : List Char := Text.print m.enc

/-- `Message::write`: message.rs:42-49, the bytes handed to the writer. -/
def write [Ext] [FloatText] (m : Message) : Bytes := frame (msgText m)

/-! ### A flat source -/

/-- All the bytes that are still to come; `broken` says whether they end in an I/O error (such as a
reset connection) instead of end of file.
The `inp` of bsp-server/src/message.rs:58, abstracted from how the bytes are cut into chunks (`Chunked` below keeps them). -/
structure Flat where
  bytes : Bytes
  broken : Bool := false
deriving Repr, DecidableEq

/-- Up to and including the first newline byte, if there is one.
What `read_line` of bsp-server/src/message.rs:64 looks for. -/
def splitLine : Bytes → Option (Bytes × Bytes)
  | [] => none
  | b :: r => if b = 10 then some ([b], r) else (splitLine r).map fun p => (b :: p.1, p.2)

theorem splitLine_eq : ∀ {s l r : Bytes}, splitLine s = some (l, r) → s = l ++ r ∧ l ≠ []
  | [], l, r, h => by simp [splitLine] at h
  | b :: s, l, r, h => by
    simp only [splitLine] at h
    split at h
    · cases h; simp
    · simp only [Option.map_eq_some_iff, Prod.mk.injEq] at h
      obtain ⟨⟨l', r'⟩, h1, rfl, rfl⟩ := h
      have := splitLine_eq h1
      simp [this.1]

/-- std `BufRead::read_until` on the whole remaining input.
Under the `read_line` of bsp-server/src/message.rs:64. -/
def Flat.readUntil (s : Flat) : Option (Bytes × Flat) :=
  match splitLine s.bytes with
  | some (l, r) => some (l, ⟨r, s.broken⟩)
  | none => if s.broken then none else some (s.bytes, ⟨[], false⟩)

/-- std `Read::read_exact` on the whole remaining input. bsp-server/src/message.rs:88. -/
def Flat.readExact (n : Nat) (s : Flat) : Exact Flat :=
  if n ≤ s.bytes.length then .ok (s.bytes.take n) ⟨s.bytes.drop n, s.broken⟩
  else if s.broken then .ioError else .eof

instance : Source Flat where
  readUntil := Flat.readUntil
  readExact := Flat.readExact
  size s := s.bytes.length
  size_lt := by
    intro s l s' h hl
    unfold Flat.readUntil at h
    split at h
    · rename_i l' r h1
      cases h
      have := splitLine_eq h1
      have h2 : 0 < l.length := List.length_pos_iff.2 hl
      rw [this.1]; simp; omega
    · split at h
      · cases h
      · cases h; exact List.length_pos_iff.2 hl
  size_le := by
    intro n s b s' h
    unfold Flat.readExact at h
    split at h
    · cases h; simp
    · split at h <;> cases h

/-! ### A chunked source: what `BufReader` sees of a socket or pipe (transporter.rs:60, 29) -/

/-- Buffered bytes, and the chunks that later calls of the underlying `read` deliver.  A call that
delivers nothing (an empty chunk) means end of file.
The locked stdin and the `BufReader` of bsp-server/src/transporter.rs:27, 52. -/
structure Chunked where
  buf : Bytes
  chunks : List Bytes
  broken : Bool := false
deriving Repr, DecidableEq

/-- std `read_until`: search the buffer (`memchr`), else take all of it, refill and go on.
Under the `read_line` of bsp-server/src/message.rs:64. -/
def Chunked.readUntilLoop (broken : Bool) : Bytes → List Bytes → Option (Bytes × Chunked)
  | buf, [] =>
    match splitLine buf with
    | some (l, r) => some (l, ⟨r, [], broken⟩)
    | none => if broken then none else some (buf, ⟨[], [], false⟩)
  | buf, c :: cs =>
    match splitLine buf with
    | some (l, r) => some (l, ⟨r, c :: cs, broken⟩)
    | none =>
      if c = [] then some (buf, ⟨[], cs, broken⟩)
      else (readUntilLoop broken c cs).map fun p => (buf ++ p.1, p.2)

/-- std `default_read_exact`: copy what the buffer has, refill and go on.
bsp-server/src/message.rs:88. -/
def Chunked.readExactLoop (broken : Bool) : Nat → Bytes → List Bytes → Exact Chunked
  | n, buf, [] =>
    if n ≤ buf.length then .ok (buf.take n) ⟨buf.drop n, [], broken⟩
    else if broken then .ioError else .eof
  | n, buf, c :: cs =>
    if n ≤ buf.length then .ok (buf.take n) ⟨buf.drop n, c :: cs, broken⟩
    else if c = [] then .eof
    else match readExactLoop broken (n - buf.length) c cs with
      | .ok b r => .ok (buf ++ b) r
      | .eof => .eof
      | .ioError => .ioError

/-- The bytes a chunked source will deliver.
Relates the reader of bsp-server/src/transporter.rs:27, 52 to `Flat`. -/
def Chunked.flat (s : Chunked) : Flat := ⟨s.buf ++ s.chunks.flatten, s.broken⟩

theorem splitLine_none_append {a b : Bytes} (h : splitLine a = none) :
    splitLine (a ++ b) = (splitLine b).map fun p => (a ++ p.1, p.2) := by
  induction a with
  | nil => simp
  | cons x a ih =>
    simp only [splitLine] at h
    split at h
    · cases h
    · rename_i hx
      simp only [Option.map_eq_none_iff] at h
      simp only [List.cons_append, splitLine, hx, if_false, ih h]
      cases splitLine b <;> simp

theorem splitLine_append {a l r : Bytes} (h : splitLine a = some (l, r)) (b : Bytes) :
    splitLine (a ++ b) = some (l, r ++ b) := by
  induction a generalizing l r with
  | nil => simp [splitLine] at h
  | cons x a ih =>
    simp only [splitLine] at h
    simp only [List.cons_append, splitLine]
    split at h
    · rename_i hx; cases h; simp [hx]
    · rename_i hx
      simp only [Option.map_eq_some_iff, Prod.mk.injEq] at h
      obtain ⟨⟨l', r'⟩, h1, rfl, rfl⟩ := h
      simp [hx, ih h1]

/-- Reading a line from chunks is reading it from their concatenation. -/
theorem Chunked.readUntil_flat (broken : Bool) (buf : Bytes) (chunks : List Bytes)
    (hne : ∀ c ∈ chunks, c ≠ []) :
    (readUntilLoop broken buf chunks).map (fun p => (p.1, p.2.flat)) =
      Flat.readUntil ⟨buf ++ chunks.flatten, broken⟩ := by
  induction chunks generalizing buf with
  | nil =>
    simp only [readUntilLoop, List.flatten_nil, List.append_nil, Flat.readUntil]
    cases h : splitLine buf with
    | some p => obtain ⟨l, r⟩ := p; simp [Chunked.flat]
    | none => cases broken <;> simp [Chunked.flat]
  | cons c cs ih =>
    simp only [readUntilLoop, List.flatten_cons, Flat.readUntil]
    cases h : splitLine buf with
    | some p => obtain ⟨l, r⟩ := p; simp [Chunked.flat, splitLine_append h]
    | none =>
      simp only [splitLine_none_append h]
      have hc : c ≠ [] := hne c (by simp)
      simp only [hc, if_false]
      have := ih c (fun x hx => hne x (List.mem_cons_of_mem _ hx))
      simp only [Flat.readUntil] at this
      cases h2 : splitLine (c ++ cs.flatten) with
      | some p =>
        obtain ⟨l, r⟩ := p
        simp only [h2, Option.map_eq_some_iff] at this
        obtain ⟨⟨l', r'⟩, h3, h4⟩ := this
        simp only [Prod.mk.injEq] at h4
        obtain ⟨rfl, h4⟩ := h4
        simp [h3, h4]
      | none =>
        simp only [h2] at this
        cases broken with
        | true =>
          simp only [if_true, Option.map_eq_none_iff] at this
          simp [this]
        | false =>
          simp only [Bool.false_eq_true, if_false, Option.map_eq_some_iff] at this
          obtain ⟨⟨l', r'⟩, h3, h4⟩ := this
          simp only [Prod.mk.injEq] at h4
          obtain ⟨rfl, h4⟩ := h4
          simp [h3, h4]

/-- The result of `read_exact` with the remaining source replaced.
Auxiliary to bsp-server/src/message.rs:88. -/
def Exact.map (f : σ → τ) : Exact σ → Exact τ
  | .ok b r => .ok b (f r)
  | .eof => .eof
  | .ioError => .ioError

/-- Reading a fixed number of bytes from chunks is reading them from their concatenation. -/
theorem Chunked.readExact_flat (broken : Bool) (n : Nat) (buf : Bytes) (chunks : List Bytes)
    (hne : ∀ c ∈ chunks, c ≠ []) :
    (readExactLoop broken n buf chunks).map Chunked.flat =
      Flat.readExact n ⟨buf ++ chunks.flatten, broken⟩ := by
  induction chunks generalizing buf n with
  | nil =>
    simp only [readExactLoop, List.flatten_nil, List.append_nil, Flat.readExact]
    split
    · simp [Exact.map, Chunked.flat]
    · split <;> simp [Exact.map]
  | cons c cs ih =>
    simp only [readExactLoop, List.flatten_cons, Flat.readExact]
    split
    · rename_i h
      rw [if_pos (by simp; omega)]
      simp only [Exact.map, Chunked.flat, List.flatten_cons]
      rw [List.take_append_of_le_length h, List.drop_append_of_le_length h]
    · rename_i h
      have hc : c ≠ [] := hne c (by simp)
      simp only [hc, if_false]
      have := ih (n - buf.length) c (fun x hx => hne x (List.mem_cons_of_mem _ hx))
      simp only [Flat.readExact] at this
      split at this
      · rename_i h2
        rw [if_pos (by simp at h2 ⊢; omega)]
        cases h3 : readExactLoop broken (n - buf.length) c cs with
        | ok b r =>
          rw [h3] at this
          simp only [Exact.map, Exact.ok.injEq] at this
          simp only [Exact.map, Exact.ok.injEq]
          have e1 : ∀ x : Bytes, List.take n (buf ++ x) = buf ++ List.take (n - buf.length) x := by
            intro x; rw [List.take_append, List.take_of_length_le (by omega)]
          have e2 : ∀ x : Bytes, List.drop n (buf ++ x) = List.drop (n - buf.length) x := by
            intro x; rw [List.drop_append, List.drop_of_length_le (by omega)]; rfl
          rw [this.1, this.2, e1, e2]
          exact ⟨rfl, rfl⟩
        | eof => rw [h3] at this; simp [Exact.map] at this
        | ioError => rw [h3] at this; simp [Exact.map] at this
      · rename_i h2
        rw [if_neg (by simp at h2 ⊢; omega)]
        rw [← this]
        cases h3 : readExactLoop broken (n - buf.length) c cs with
        | ok b r =>
          rw [h3] at this
          simp only [Exact.map] at this
          split at this <;> cases this
        | eof => simp [Exact.map]
        | ioError => simp [Exact.map]

/-- Bytes are consumed in order, from the front. -/
theorem Chunked.readUntil_size (broken : Bool) (buf : Bytes) (chunks : List Bytes) {l s'}
    (h : readUntilLoop broken buf chunks = some (l, s')) :
    l.length + (s'.buf ++ s'.chunks.flatten).length = (buf ++ chunks.flatten).length ∧
      ∃ k, s'.chunks = chunks.drop k := by
  induction chunks generalizing buf l with
  | nil =>
    simp only [readUntilLoop] at h
    split at h
    · rename_i l' r h1
      cases h
      have := (splitLine_eq h1).1
      exact ⟨by simp [this], 0, rfl⟩
    · split at h
      · cases h
      · cases h; exact ⟨by simp, 0, rfl⟩
  | cons c cs ih =>
    simp only [readUntilLoop] at h
    split at h
    · rename_i l' r h1
      cases h
      have := (splitLine_eq h1).1
      exact ⟨by simp [this], 0, rfl⟩
    · split at h
      · rename_i hc
        cases h; exact ⟨by simp [hc], 1, rfl⟩
      · simp only [Option.map_eq_some_iff, Prod.mk.injEq] at h
        obtain ⟨⟨l', r'⟩, h1, rfl, rfl⟩ := h
        obtain ⟨h2, k, h3⟩ := ih c h1
        exact ⟨by simp at h2 ⊢; omega, k + 1, by simpa using h3⟩

theorem Chunked.readExact_size (broken : Bool) (n : Nat) (buf : Bytes) (chunks : List Bytes) {b s'}
    (h : readExactLoop broken n buf chunks = .ok b s') :
    b.length + (s'.buf ++ s'.chunks.flatten).length = (buf ++ chunks.flatten).length ∧
      ∃ k, s'.chunks = chunks.drop k := by
  induction chunks generalizing buf n b with
  | nil =>
    simp only [readExactLoop] at h
    split at h
    · cases h; exact ⟨by simp; omega, 0, rfl⟩
    · split at h <;> cases h
  | cons c cs ih =>
    simp only [readExactLoop] at h
    split at h
    · cases h; exact ⟨by simp; omega, 0, rfl⟩
    · split at h
      · cases h
      · split at h
        · rename_i b' r' h1
          cases h
          obtain ⟨h2, k, h3⟩ := ih _ c h1
          exact ⟨by simp at h2 ⊢; omega, k + 1, by simpa using h3⟩
        · cases h
        · cases h

instance : Source Chunked where
  readUntil s := Chunked.readUntilLoop s.broken s.buf s.chunks
  readExact n s := Chunked.readExactLoop s.broken n s.buf s.chunks
  size s := (s.buf ++ s.chunks.flatten).length
  size_lt := by
    intro s l s' h hl
    have := (Chunked.readUntil_size _ _ _ h).1
    have := List.length_pos_iff.2 hl
    omega
  size_le := by
    intro n s b s' h
    have := (Chunked.readExact_size _ _ _ _ h).1
    omega

/-! ### Reading until the end -/

/-- A successful pass through the header loop consumes something. -/
theorem headers_size [Source σ] (size : Option Nat) (s : σ) {n s'}
    (h : headers size s = .item n s') : Source.size s' < Source.size s := by
  unfold headers at h
  split at h
  · cases h
  · rename_i l s1 h1
    split at h
    · cases h
    · rename_i hl
      have hlt := Source.size_lt h1 hl
      split at h
      · cases h
      · split at h
        · cases h
        · split at h
          · cases h
          · cases h; exact hlt
        · split at h
          · cases h
          · split at h
            · split at h
              · cases h
              · have := headers_size _ s1 h; omega
            · have := headers_size _ s1 h; omega
termination_by Source.size s
decreasing_by all_goals exact hlt

theorem readText_size [Source σ] (s : σ) {cs s'} (h : readText s = .item cs s') :
    Source.size s' < Source.size s := by
  unfold readText at h
  split at h
  · rename_i n s1 h1
    have := headers_size _ _ h1
    split at h
    · cases h
    · split at h
      · rename_i b s2 h2
        have := Source.size_le h2
        split at h
        · cases h
        · cases h; omega
      · cases h
      · cases h
  all_goals cases h

theorem readMsg_size [Ext] [FloatText] [Source σ] (s : σ) {m s'} (h : readMsg s = .item m s') :
    Source.size s' < Source.size s := by
  unfold readMsg at h
  split at h
  · rename_i cs s1 h1
    have := readText_size _ h1
    split at h
    · cases h
    · cases h; omega
  all_goals cases h

/-- Why reading stopped.
How the loops of bsp-server/src/transporter.rs:28-39, 53-59 come to their end. -/
inductive Stop where
  | eof
  | invalidData
  | unexpectedEof
  | ioError
  | panic
deriving Repr, DecidableEq

/-- Reading message after message until something else than a message comes: the loop of the reader
threads, `while let Some(msg) = Message::read(..)?` (transporter.rs:31, 64), without its early
exit on an exit notification (for which see Verif/Transport.lean). -/
def readAll [Ext] [FloatText] [Source σ] (s : σ) : List Message × Stop :=
  match h : readMsg s with
  | .item m s' => ((m :: (readAll s').1), (readAll s').2)
  | .eof => ([], .eof)
  | .invalidData => ([], .invalidData)
  | .unexpectedEof => ([], .unexpectedEof)
  | .ioError => ([], .ioError)
  | .panic => ([], .panic)
termination_by Source.size s
decreasing_by all_goals exact readMsg_size _ h

end Frame
end Bsp
