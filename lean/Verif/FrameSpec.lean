/-
Specification of framed streams, independent of the reading code: header lines, header blocks, the
length a block declares, lines that no block may contain.
-/
import Verif.Framing

namespace Bsp.Spec

/-- The texts `": "`, `"\r\n"` and `"Content-Length"` as characters.
Specification of bsp-server/src/message.rs:67-79. -/
def sep : List Char := [':', ' ']
/-- `"\r\n"`; specification of bsp-server/src/message.rs:67. -/
def crlf : List Char := ['\r', '\n']
/-- Specification of bsp-server/src/message.rs:79. -/
def contentLength : List Char :=
  ['C', 'o', 'n', 't', 'e', 'n', 't', '-', 'L', 'e', 'n', 'g', 't', 'h']

/-- A header line `name: value`. Specification of bsp-server/src/message.rs:70-78. -/
structure Header where
  name : List Char
  value : List Char

/-- What makes it one line with that name: no newline in it, and the first `": "` ends the name.
Specification of bsp-server/src/message.rs:64-78. -/
def Header.Ok (h : Header) : Prop := '\n' ∉ h.name ∧ '\n' ∉ h.value ∧ ¬ sep <:+: h.name

/-- The bytes of a header line. Specification of bsp-server/src/message.rs:64-78. -/
def Header.bytes (h : Header) : Bytes := utf8 (h.name ++ sep ++ h.value ++ crlf)

/-- Several header lines. Specification of bsp-server/src/message.rs:62-82. -/
def lines (hs : List Header) : Bytes := hs.flatMap Header.bytes

/-- The blank line. Specification of bsp-server/src/message.rs:71-73. -/
def blank : Bytes := [13, 10]

/-- The decimal numerals of 64-bit unsigned integers: an optional `+`, then digits.
Specification of `parse::<usize>`, bsp-server/src/message.rs:80. -/
def Numeral (cs : List Char) (n : Nat) : Prop :=
  ∃ sg ds, cs = sg ++ ds ∧ (sg = [] ∨ sg = ['+']) ∧ ds ≠ [] ∧ (∀ c ∈ ds, '0' ≤ c ∧ c ≤ '9') ∧
    n = Nat.ofDigitChars 10 ds 0 ∧ n < 2 ^ 64

/-- Header lines that are well-formed, every `Content-Length` among them with a numeral.
Specification of bsp-server/src/message.rs:62-82. -/
def GoodLines (hs : List Header) : Prop :=
  ∀ h ∈ hs, h.Ok ∧ (h.name = contentLength → ∃ k, Numeral h.value k)

/-- The last `Content-Length` line says `n`. Specification of bsp-server/src/message.rs:79-84. -/
def Declares (hs : List Header) (n : Nat) : Prop :=
  ∃ a h b, hs = a ++ h :: b ∧ h.name = contentLength ∧ Numeral h.value n ∧
    ∀ x ∈ b, x.name ≠ contentLength

/-- Valid UTF-8. Specification of `read_line` and `from_utf8`, bsp-server/src/message.rs:64, 90. -/
def ValidUtf8 (b : Bytes) : Prop := ∃ cs, b = utf8 cs

/-- One complete line (ending in its only newline byte) that no header block may contain: it is not
valid UTF-8, or does not end in CR LF, or is not blank and has no `": "`, or is a `Content-Length` without
numeral. Specification of the errors of bsp-server/src/message.rs:64-80. -/
def BadLine (l : Bytes) : Prop :=
  (∃ a, l = a ++ [10] ∧ (10 : UInt8) ∉ a) ∧
  (¬ ValidUtf8 l ∨
   (∃ cs, l = utf8 cs ∧ ¬ crlf <:+ cs) ∨
   (∃ b, l = utf8 (b ++ crlf) ∧ b ≠ [] ∧ ¬ sep <:+: b) ∨
   (∃ v, l = utf8 (contentLength ++ sep ++ v ++ crlf) ∧ ¬ ∃ n, Numeral v n))

/-- A complete frame for the text `cs`: good header lines that declare the number of its bytes, the
blank line, its bytes. Specification of bsp-server/src/message.rs:58-91. -/
def IsFrame (b : Bytes) (cs : List Char) : Prop :=
  ∃ hs, GoodLines hs ∧ Declares hs (utf8 cs).length ∧ b = lines hs ++ blank ++ utf8 cs

end Bsp.Spec
