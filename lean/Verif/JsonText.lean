/-
JSON text: the compact printer and the parser of serde_json 1.0.79 as used by
`serde_json::to_string(&JsonRpc)` (message.rs:44) and `serde_json::from_str::<Message>`
(message.rs:37), on lists of characters.  serde_json works on the UTF-8 bytes; on valid UTF-8, which
is all it ever gets here (message.rs:86-89), that is the same as working on characters, because all
characters with a syntactic role are ASCII.
-/
import Verif.Json

namespace Bsp

/-- Parameter: the text form of doubles (serde_json prints them with `ryu`; its parser converts a
number literal to the closest or nearly closest double, or fails when out of range), and whether the literal `-0` is
the integer 0 or a double, which differs between releases of serde_json (de.rs `parse_number`, `neg > 0` or `neg >= 0`).
Used through bsp-server/src/message.rs:37, 44. -/
class FloatText where
  print : F64 → List Char
  parse : List Char → Option F64
  minusZeroInt : Bool := false

namespace Text
open Json

/-! ### Printer (serde_json `CompactFormatter`) -/

/-- Lower-case hexadecimal digit (serde_json ser.rs `HEX_DIGITS`). -/
def hexDigit (n : Nat) : Char :=
  if n < 10 then Char.ofNat (48 + n) else Char.ofNat (87 + n)

/-- Escaping of one character (serde_json ser.rs `ESCAPE` table, `write_char_escape`): the two-letter
escapes, `\u00xx` for the other control characters, everything else verbatim. -/
def escChar (c : Char) : List Char :=
  if c = '"' then ['\\', '"']
  else if c = '\\' then ['\\', '\\']
  else if c = '\x08' then ['\\', 'b']
  else if c = '\t' then ['\\', 't']
  else if c = '\n' then ['\\', 'n']
  else if c = '\x0c' then ['\\', 'f']
  else if c = '\r' then ['\\', 'r']
  else if c.toNat < 0x20 then ['\\', 'u', '0', '0', hexDigit (c.toNat / 16), hexDigit (c.toNat % 16)]
  else [c]

/-- A string literal (serde_json ser.rs `format_escaped_str`). -/
def printStr (s : String) : List Char := '"' :: (s.toList.flatMap escChar ++ ['"'])

/-- An integer (`itoa`). Through bsp-server/src/message.rs:44. -/
def printInt (i : Int) : List Char :=
  if i < 0 then '-' :: Nat.toDigits 10 i.natAbs else Nat.toDigits 10 i.natAbs

mutual
/-- Compact printing (serde_json `to_string`). The call of bsp-server/src/message.rs:44. -/
def print [FloatText] : Json → List Char
  | .null => ['n', 'u', 'l', 'l']
  | .bool true => ['t', 'r', 'u', 'e']
  | .bool false => ['f', 'a', 'l', 's', 'e']
  | .int i => printInt i
  | .float f => FloatText.print f
  | .str s => printStr s
  | .arr xs => '[' :: (printElems xs ++ [']'])
  | .obj ms => '{' :: (printMembers ms ++ ['}'])
/-- Elements separated by commas. Through bsp-server/src/message.rs:44. -/
def printElems [FloatText] : List Json → List Char
  | [] => []
  | [x] => print x
  | x :: y :: xs => print x ++ ',' :: printElems (y :: xs)
/-- Members separated by commas. Through bsp-server/src/message.rs:44. -/
def printMembers [FloatText] : Members → List Char
  | [] => []
  | [(k, x)] => printStr k ++ ':' :: print x
  | (k, x) :: m :: ms => printStr k ++ ':' :: print x ++ ',' :: printMembers (m :: ms)
end

/-! ### Parser (serde_json `Deserializer<StrRead>`) -/

/-- serde_json de.rs `parse_whitespace`. -/
def isWs (c : Char) : Bool := c = ' ' || c = '\n' || c = '\t' || c = '\r'

/-- Skip white space. serde_json de.rs `parse_whitespace`. -/
def skipWs (cs : List Char) : List Char := cs.dropWhile isWs

/-- ASCII digit. Through bsp-server/src/message.rs:37. -/
def isDigit (c : Char) : Bool := '0' ≤ c && c ≤ '9'

/-- Value of a hexadecimal digit, either case (serde_json read.rs `HEX` table). -/
def hexVal (c : Char) : Option Nat :=
  if '0' ≤ c ∧ c ≤ '9' then some (c.toNat - 48)
  else if 'a' ≤ c ∧ c ≤ 'f' then some (c.toNat - 87)
  else if 'A' ≤ c ∧ c ≤ 'F' then some (c.toNat - 55)
  else none

/-- Four hexadecimal digits (serde_json read.rs `decode_hex_escape`). -/
def hex4 : List Char → Option (Nat × List Char)
  | a :: b :: c :: d :: r =>
    match hexVal a, hexVal b, hexVal c, hexVal d with
    | some a, some b, some c, some d => some (((a * 16 + b) * 16 + c) * 16 + d, r)
    | _, _, _, _ => none
  | _ => none

/-- What follows `\u` (serde_json read.rs `parse_escape`): a lone low surrogate is an error, a high
surrogate must be followed by `\u` and a low one. -/
def uEscape (cs : List Char) : Option (Char × List Char) :=
  match hex4 cs with
  | none => none
  | some (n, r) =>
    if 0xDC00 ≤ n ∧ n ≤ 0xDFFF then none
    else if 0xD800 ≤ n ∧ n ≤ 0xDBFF then
      match r with
      | c1 :: c2 :: r =>
        if c1 = '\\' ∧ c2 = 'u' then
          match hex4 r with
          | none => none
          | some (n2, r) =>
            if 0xDC00 ≤ n2 ∧ n2 ≤ 0xDFFF then
              some (Char.ofNat ((n - 0xD800) * 0x400 + (n2 - 0xDC00) + 0x10000), r)
            else none
        else none
      | _ => none
    else some (Char.ofNat n, r)

/-- The two-letter escapes (serde_json read.rs `parse_escape`). -/
def simpleEscape (c : Char) : Option Char :=
  if c = '"' then some '"'
  else if c = '\\' then some '\\'
  else if c = '/' then some '/'
  else if c = 'b' then some '\x08'
  else if c = 'f' then some '\x0c'
  else if c = 'n' then some '\n'
  else if c = 'r' then some '\r'
  else if c = 't' then some '\t'
  else none

/-- One character of a string, which is not at its closing quote.  Control characters are rejected
(serde_json read.rs `parse_str_bytes` with `validate = true`). -/
def strItem : List Char → Option (Char × List Char)
  | [] => none
  | c :: r =>
    if c = '\\' then
      match r with
      | [] => none
      | e :: r => if e = 'u' then uEscape r else (simpleEscape e).map (·, r)
    else if c.toNat < 0x20 then none
    else some (c, r)

/-- The rest of a string after its opening quote.  The counter only makes the recursion structural;
it is always larger than the number of characters (Verif/JsonGrammar.lean shows that the parser
accepts exactly the grammar, so it never interferes). serde_json read.rs `parse_str_bytes`. -/
def strLoop : Nat → List Char → Option (List Char × List Char)
  | 0, _ => none
  | n + 1, cs =>
    match cs with
    | [] => none
    | c :: r =>
      if c = '"' then some ([], r)
      else match strItem (c :: r) with
        | none => none
        | some (x, r) => (strLoop n r).map fun p => (x :: p.1, p.2)

/-- A string after its opening quote. Through bsp-server/src/message.rs:37. -/
def parseStr (cs : List Char) : Option (String × List Char) :=
  (strLoop (cs.length + 1) cs).map fun p => (String.ofList p.1, p.2)

/-- Optional fraction: a dot needs at least one digit (serde_json de.rs `parse_decimal`). -/
def lexFrac (cs : List Char) : Option (List Char × List Char) :=
  match cs with
  | [] => some ([], [])
  | c :: r =>
    if c = '.' then
      if r.takeWhile isDigit = [] then none
      else some ('.' :: r.takeWhile isDigit, r.dropWhile isDigit)
    else some ([], c :: r)

/-- Optional sign of an exponent (serde_json de.rs `parse_exponent`). -/
def lexSign (cs : List Char) : List Char × List Char :=
  match cs with
  | [] => ([], [])
  | c :: r => if c = '+' ∨ c = '-' then ([c], r) else ([], c :: r)

/-- Optional exponent: needs at least one digit (serde_json de.rs `parse_exponent`). -/
def lexExp (cs : List Char) : Option (List Char × List Char) :=
  match cs with
  | [] => some ([], [])
  | c :: r =>
    if c = 'e' ∨ c = 'E' then
      if (lexSign r).2.takeWhile isDigit = [] then none
      else some (c :: ((lexSign r).1 ++ (lexSign r).2.takeWhile isDigit),
        (lexSign r).2.dropWhile isDigit)
    else some ([], c :: r)

/-- Optional leading minus. Through bsp-server/src/message.rs:37. -/
def lexMinus (cs : List Char) : List Char × List Char :=
  match cs with
  | [] => ([], [])
  | c :: r => if c = '-' then ([c], r) else ([], c :: r)

/-- An integer literal as `u64` / `i64`, if it fits (serde_json de.rs `parse_integer`, `parse_number`); `-0` fits or is the
double -0.0. -/
def fitInt [FloatText] (neg : Bool) (n : Nat) : Option Int :=
  if neg then (if (0 < n ∨ FloatText.minusZeroInt = true) ∧ n ≤ 2 ^ 63 then some (-(n : Int)) else none)
  else (if n < 2 ^ 64 then some n else none)

/-- A number (serde_json de.rs `parse_any_number`): no leading zeros; integers that do not fit are
doubles. -/
def parseNum [FloatText] (cs : List Char) : Option (Json × List Char) :=
  let sg := (lexMinus cs).1
  let ds := (lexMinus cs).2.takeWhile isDigit
  let r := (lexMinus cs).2.dropWhile isDigit
  if ds = [] then none
  else if 1 < ds.length ∧ ds.head? = some '0' then none
  else match lexFrac r with
    | none => none
    | some (fr, r) =>
      match lexExp r with
      | none => none
      | some (ex, r) =>
        if fr = [] ∧ ex = [] then
          match fitInt (sg ≠ []) (Nat.ofDigitChars 10 ds 0) with
          | some i => some (.int i, r)
          | none => (FloatText.parse (sg ++ ds)).map fun f => (.float f, r)
        else (FloatText.parse (sg ++ ds ++ fr ++ ex)).map fun f => (.float f, r)

/-- Fixed letters (serde_json de.rs `parse_ident`). -/
def ident : List Char → List Char → Option (List Char)
  | [], r => some r
  | c :: cs, d :: r => if c = d then ident cs r else none
  | _ :: _, [] => none

/-- The elements of an array after `[` (serde_json de.rs `SeqAccess::next_element_seed`), `pv` being
the value parser; `first` as in the code.  Counter as in `strLoop`. -/
def elems (pv : List Char → Option (Json × List Char)) :
    Nat → Bool → List Char → Option (List Json × List Char)
  | 0, _, _ => none
  | n + 1, first, cs =>
    match skipWs cs with
    | [] => none
    | c :: r =>
      if c = ']' then some ([], r)
      else
        match (if first then some (c :: r)
          else if c = ',' then
            (match skipWs r with
            | [] => none
            | d :: r => if d = ']' then none else some (d :: r))
          else none) with
        | none => none
        | some cs =>
          match pv cs with
          | none => none
          | some (x, r) => (elems pv n false r).map fun p => (x :: p.1, p.2)

/-- One member: name, colon, value (serde_json de.rs `MapAccess::next_key_seed`, `next_value_seed`,
`parse_object_colon`). -/
def member (pv : List Char → Option (Json × List Char)) (cs : List Char) :
    Option ((String × Json) × List Char) :=
  match cs with
  | [] => none
  | c :: r =>
    if c = '"' then
      match parseStr r with
      | none => none
      | some (k, r) =>
        match skipWs r with
        | [] => none
        | c :: r =>
          if c = ':' then (pv r).map fun p => ((k, p.1), p.2)
          else none
    else none

/-- The members of an object after `{`. serde_json de.rs `MapAccess`. -/
def mems (pv : List Char → Option (Json × List Char)) :
    Nat → Bool → List Char → Option (Members × List Char)
  | 0, _, _ => none
  | n + 1, first, cs =>
    match skipWs cs with
    | [] => none
    | c :: r =>
      if c = '}' then some ([], r)
      else
        match (if first then some (c :: r) else if c = ',' then some (skipWs r) else none) with
        | none => none
        | some cs =>
          match member pv cs with
          | none => none
          | some (x, r) => (mems pv n false r).map fun p => (x :: p.1, p.2)

/-- A value, preceded by optional white space.  The number is how many more levels of arrays and
objects may be opened: serde_json's `remaining_depth` minus one (de.rs `check_recursion!`: entering
a container decrements it and fails at zero). serde_json de.rs `deserialize_any`. -/
def parseValue [FloatText] : Nat → List Char → Option (Json × List Char)
  | d, cs =>
    match skipWs cs with
    | [] => none
    | c :: r =>
      if c = 'n' then (ident ['u', 'l', 'l'] r).map (.null, ·)
      else if c = 't' then (ident ['r', 'u', 'e'] r).map (.bool true, ·)
      else if c = 'f' then (ident ['a', 'l', 's', 'e'] r).map (.bool false, ·)
      else if c = '"' then (parseStr r).map fun p => (.str p.1, p.2)
      else if c = '[' then
        match d with
        | 0 => none
        | d + 1 => (elems (parseValue d) (r.length + 1) true r).map fun p => (.arr p.1, p.2)
      else if c = '{' then
        match d with
        | 0 => none
        | d + 1 => (mems (parseValue d) (r.length + 1) true r).map fun p => (.obj p.1, p.2)
      else if c = '-' ∨ isDigit c = true then parseNum (c :: r)
      else none

/-- `serde_json::from_str`: one value, then only white space (`Deserializer::end`); 128 levels of
recursion, of which 127 are usable. message.rs:37. -/
def parse [FloatText] (cs : List Char) : Option Json :=
  match parseValue 127 cs with
  | some (j, r) => if skipWs r = [] then some j else none
  | none => none

end Text
end Bsp
