/-
Doubles and their text: what serde_json 1.0.79 (without the feature `float_roundtrip`, see
bsp-server/Cargo.toml:13, bsp-types/Cargo.toml:13) and `ryu` 1.0.9 (Cargo.lock) do with the doubles in the
values that bsp-server/src/message.rs:37, 44 read and write.  Both crates are dependencies; the model
follows their published source.

A finite double without its sign is a number `n < 2047 * 2^52`, its bit pattern.  All doubles are
multiples of `2^-1074`, so `value n` counts those.  The rational number `a / b` counts them too.
-/
import Verif.JsonPrint

namespace Bsp

namespace Spec

/-- IEEE 754: what the bit pattern `n` (without sign) is worth, in units of `2^-1074`: subnormal numbers,
then 52 bits of fraction with a leading one, times a power of two.
Specification about the doubles in the values of bsp-server/src/message.rs:37, 44. -/
def value (n : Nat) : Nat :=
  if n < 2 ^ 52 then n else (2 ^ 52 + n % 2 ^ 52) * 2 ^ (n / 2 ^ 52 - 1)

/-- Bit pattern of infinity; finite doubles are below it.
Specification about the doubles in the values of bsp-server/src/message.rs:37, 44. -/
def infinity : Nat := 2047 * 2 ^ 52

/-- How many units of `2^-1074` make one.
Specification about the doubles in the values of bsp-server/src/message.rs:37, 44. -/
@[irreducible] def unit : Nat := 2 ^ 1074

/-- Distance of two numbers. Specification about the doubles of bsp-server/src/message.rs:37, 44. -/
def dist (x y : Nat) : Nat := (x - y) + (y - x)

/-- IEEE 754 round to nearest, ties to even: `n` is the bit pattern nearest to `a / b`.  (Infinity stands
for `2^1024` here, as in the standard.)
Specification about the doubles in the values of bsp-server/src/message.rs:37, 44. -/
def Nearest (n a b : Nat) : Prop :=
  ∀ m, dist a (value n * b) ≤ dist a (value m * b) ∧
    (m ≠ n → dist a (value n * b) = dist a (value m * b) → n % 2 = 0)

/-- `n` is the bit pattern nearest to `s * 10 ^ e`.
Specification about the doubles in the values of bsp-server/src/message.rs:37, 44. -/
def NearestDec (n s : Nat) (e : Int) : Prop :=
  Nearest n (s * 10 ^ e.toNat * unit) (10 ^ (-e).toNat)

end Spec

/-- Bit pattern without the sign. Through bsp-server/src/message.rs:44 (`f64::to_bits`). -/
def F64.mag (f : F64) : Nat := f.bits.toNat % 2 ^ 63

/-- Sign bit. Through bsp-server/src/message.rs:44 (`f64::to_bits`). -/
def F64.neg (f : F64) : Bool := 2 ^ 63 ≤ f.bits.toNat

/-- The double of a sign and a magnitude. Through bsp-server/src/message.rs:37 (`-f`). -/
def F64.make (neg : Bool) (n : Nat) : F64 := ⟨UInt64.ofNat ((if neg then 2 ^ 63 else 0) + n)⟩

/-- Neither infinite nor NaN. The doubles that can occur in the values of bsp-server/src/message.rs:37, 44. -/
def F64.Finite (f : F64) : Prop := f.mag < Spec.infinity

instance (f : F64) : Decidable f.Finite := inferInstanceAs (Decidable (_ < _))

namespace Double
open Spec

/-! ### Arithmetic of `f64` (hardware) -/

/-- `a / b` rounded to an integer, ties to even. Step of the arithmetic behind bsp-server/src/message.rs:37. -/
def roundInt (a b : Nat) : Nat :=
  if 2 * (a % b) < b then a / b
  else if b < 2 * (a % b) then a / b + 1
  else a / b + (a / b) % 2

/-- `a / b` (in units of `2^-1074`) rounded to 53 bits. Arithmetic behind bsp-server/src/message.rs:37. -/
def roundPat (a b : Nat) : Nat :=
  (Nat.log2 (a / b) - 52) * 2 ^ 52 + roundInt a (b * 2 ^ (Nat.log2 (a / b) - 52))

/-- `a / b` as a double. Arithmetic behind bsp-server/src/message.rs:37. -/
def rnd (a b : Nat) : Nat := min infinity (roundPat a b)

/-- `s as f64`. Behind bsp-server/src/message.rs:37 (serde_json de.rs `f64_from_parts`). -/
def ofNat (s : Nat) : Nat := rnd (s * unit) 1

/-- `x * y`. Behind bsp-server/src/message.rs:37 (serde_json de.rs `f64_from_parts`). -/
def mul (x y : Nat) : Nat := rnd (value x * value y) unit

/-- `x / y`. Behind bsp-server/src/message.rs:37 (serde_json de.rs `f64_from_parts`). -/
def div (x y : Nat) : Nat := rnd (value x * unit) (value y)

/-! ### Reading (serde_json de.rs) -/

/-- The table `POW10` (serde_json de.rs): the literals 1e0 to 1e308, as the compiler rounds them.
Behind bsp-server/src/message.rs:37. -/
def pow10 (k : Nat) : Nat := rnd (10 ^ k * unit) 1

/-- The loop of `f64_from_parts` (serde_json de.rs); the counter bounds the number of rounds.
Behind bsp-server/src/message.rs:37. -/
def scale : Nat → Nat → Int → Option Nat
  | 0, _, _ => none
  | c + 1, f, e =>
    if e.natAbs ≤ 308 then
      if 0 ≤ e then
        if infinity ≤ mul f (pow10 e.natAbs) then none else some (mul f (pow10 e.natAbs))
      else some (div f (pow10 e.natAbs))
    else if f = 0 then some f
    else if 0 ≤ e then none
    else scale c (div f (pow10 308)) (e + 308)

/-- `f64_from_parts` (serde_json de.rs) without the sign. Behind bsp-server/src/message.rs:37. -/
def fromParts (s : Nat) (e : Int) : Option Nat := scale (e.natAbs / 308 + 1) (ofNat s) e

/-- Value of a digit. Behind bsp-server/src/message.rs:37 (serde_json de.rs). -/
def dig (c : Char) : Nat := c.toNat - 48

/-- The digits before the point (serde_json de.rs `parse_integer`, `parse_long_integer`): the significand as
far as it fits `u64`, and how many digits do not.  Behind bsp-server/src/message.rs:37. -/
def sigInt : Nat → List Char → Nat × Nat
  | s, [] => (s, 0)
  | s, c :: cs => if s * 10 + dig c < 2 ^ 64 then sigInt (s * 10 + dig c) cs else (s, cs.length + 1)

/-- The digits after the point (serde_json de.rs `parse_decimal`): from the first one that does not fit they
are ignored.  The exponent is an `i32` in the code; it does not overflow on texts shorter than 2 GiB.
Behind bsp-server/src/message.rs:37. -/
def sigFrac : Nat → Int → List Char → Nat × Int
  | s, e, [] => (s, e)
  | s, e, c :: cs => if s * 10 + dig c < 2 ^ 64 then sigFrac (s * 10 + dig c) (e - 1) cs else (s, e)

/-- The digits of the exponent as an `i32` (serde_json de.rs `parse_exponent`).
Behind bsp-server/src/message.rs:37. -/
def expVal : Nat → List Char → Option Nat
  | x, [] => some x
  | x, c :: cs => if x * 10 + dig c < 2 ^ 31 then expVal (x * 10 + dig c) cs else none

/-- `i32::saturating_add`, `saturating_sub`. Behind bsp-server/src/message.rs:37 (serde_json de.rs
`parse_exponent`). -/
def saturate (e : Int) : Int := max (-2 ^ 31) (min (2 ^ 31 - 1) e)

/-- `parse_exponent`, `parse_exponent_overflow` (serde_json de.rs), after the letter `e`.
Behind bsp-server/src/message.rs:37. -/
def readExp (s : Nat) (e : Int) (cs : List Char) : Option Nat :=
  let pos := cs.head? ≠ some '-'
  let ds := if cs.head? = some '-' ∨ cs.head? = some '+' then cs.tail else cs
  match expVal 0 ds with
  | some x => fromParts s (saturate (if pos then e + x else e - x))
  | none => if s ≠ 0 ∧ pos then none else some 0

/-- After the digits after the point (serde_json de.rs `parse_decimal`), or before the exponent.
Behind bsp-server/src/message.rs:37. -/
def readTail (s : Nat) (e : Int) : List Char → Option Nat
  | [] => fromParts s e
  | _ :: cs => readExp s e cs

/-- A number literal without sign (serde_json de.rs `parse_integer`, `parse_number`, `parse_long_integer`,
`parse_decimal`). Behind bsp-server/src/message.rs:37. -/
def readMag (cs : List Char) : Option Nat :=
  let p := sigInt 0 (cs.takeWhile Text.isDigit)
  match cs.dropWhile Text.isDigit with
  | [] => fromParts p.1 p.2
  | c :: r =>
    if c = '.' then
      let q := sigFrac p.1 p.2 (r.takeWhile Text.isDigit)
      readTail q.1 q.2 (r.dropWhile Text.isDigit)
    else readExp p.1 p.2 r

/-- A number literal (serde_json de.rs `parse_any_number`). Behind bsp-server/src/message.rs:37. -/
def read (cs : List Char) : Option F64 :=
  if cs.head? = some '-' then (readMag cs.tail).map (F64.make true)
  else (readMag cs).map (F64.make false)

/-! ### Printing (`ryu`) -/

/-- The interval of the numbers that `n` is nearest to, as `ryu` computes it (d2s.rs `mv`, `mp`, `mm`,
`accept_bounds`): half-way to the neighbours, bounds included when `n` is even.
Behind bsp-server/src/message.rs:44. -/
def Near (n a b : Nat) : Prop :=
  (n = 0 ∨ (value (n - 1) + value n) * b < 2 * a ∨
    ((value (n - 1) + value n) * b = 2 * a ∧ n % 2 = 0)) ∧
  (2 * a < (value n + value (n + 1)) * b ∨ (2 * a = (value n + value (n + 1)) * b ∧ n % 2 = 0))

instance (n a b : Nat) : Decidable (Near n a b) := inferInstanceAs (Decidable (_ ∧ _))

/-- `2^-1074` is this many times `10^-1074`. Behind bsp-server/src/message.rs:44. -/
@[irreducible] def fives : Nat := 5 ^ 1074

/-- `d * 10 ^ (i - 1074)` lies in the interval of `n`. Behind bsp-server/src/message.rs:44. -/
def Inside (n d i : Nat) : Prop := Near n (d * 10 ^ i) fives

instance (n d i : Nat) : Decidable (Inside n d i) := inferInstanceAs (Decidable (Near _ _ _))

/-- The multiple of `10 ^ (i - 1074)` inside the interval that is closest to `n`, if there is one
(`ryu` d2s.rs, rounding at the end). Behind bsp-server/src/message.rs:44. -/
def pick (n i : Nat) : Option Nat :=
  let v := value n * fives
  let q := v / 10 ^ i
  let r := v % 10 ^ i
  if Inside n q i ∧ (¬ Inside n (q + 1) i ∨ 2 * r < 10 ^ i ∨ (2 * r = 10 ^ i ∧ q % 2 = 0)) then some q
  else if Inside n (q + 1) i then some (q + 1)
  else none

/-- The shortest decimal in the interval: the largest exponent below `i` that has one (`ryu` d2s.rs `d2d`,
which drops digits as long as a number is left in the interval).  Behind bsp-server/src/message.rs:44. -/
def search (n : Nat) : Nat → Nat × Nat
  | 0 => (0, 0)
  | i + 1 => match pick n i with
    | some d => (d, i)
    | none => search n i

/-- Digits and exponent of the shortest decimal (`ryu` d2s.rs `d2d`). Behind bsp-server/src/message.rs:44. -/
def shortest (n : Nat) : Nat × Int := ((search n 1400).1, ((search n 1400).2 : Int) - 1074)

/-- Exponent with its sign (`ryu` pretty/exponent.rs `write_exponent3`). Behind bsp-server/src/message.rs:44. -/
def printExp (e : Int) : List Char := Text.printInt e

/-- Layout of `d * 10 ^ k` (`ryu` pretty/mod.rs `format64`). Behind bsp-server/src/message.rs:44. -/
def layout (d : Nat) (k : Int) : List Char :=
  let ds := Nat.toDigits 10 d
  let kk := ds.length + k
  if 0 ≤ k ∧ kk ≤ 16 then ds ++ List.replicate k.toNat '0' ++ ['.', '0']
  else if 0 < kk ∧ kk ≤ 16 then ds.take kk.toNat ++ '.' :: ds.drop kk.toNat
  else if -5 < kk ∧ kk ≤ 0 then '0' :: '.' :: (List.replicate (-kk).toNat '0' ++ ds)
  else if ds.length = 1 then ds ++ 'e' :: printExp (kk - 1)
  else ds.take 1 ++ '.' :: (ds.drop 1 ++ 'e' :: printExp (kk - 1))

/-- A double without sign (`ryu` pretty/mod.rs `format64`). Behind bsp-server/src/message.rs:44. -/
def printMag (n : Nat) : List Char :=
  if n = 0 then ['0', '.', '0'] else layout (shortest n).1 (shortest n).2

/-- A double (serde_json ser.rs `serialize_f64`: `null` unless finite; `ryu` `format64`).
Behind bsp-server/src/message.rs:44. -/
def print (f : F64) : List Char :=
  if f.mag < infinity then (if f.neg then '-' :: printMag f.mag else printMag f.mag)
  else ['n', 'u', 'l', 'l']

end Double

/-- The text of doubles as serde_json 1.0.79 with `ryu` 1.0.9 has it.
Through bsp-server/src/message.rs:37, 44. -/
@[reducible] def FloatText.serdeJson : FloatText where
  print := Double.print
  parse := Double.read

end Bsp
