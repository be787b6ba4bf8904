/-
Specification of JSON texts (RFC 8259), independent of the parser: which text denotes which value,
with arrays and objects nested at most `d` deep.  Then: the parser of Verif/JsonText.lean accepts
exactly these texts, and the printer produces one of them.
-/
import Verif.JsonText

namespace Bsp

/-! ### The grammar -/

namespace Gram

/-- White space of RFC 8259. Specification of what bsp-server/src/message.rs:37 accepts. -/
def Ws (w : List Char) : Prop := ∀ c ∈ w, c = ' ' ∨ c = '\n' ∨ c = '\t' ∨ c = '\r'

/-- The letter after a backslash and what it denotes.
Specification of what bsp-server/src/message.rs:37 accepts. -/
def escapes : List (Char × Char) :=
  [('"', '"'), ('\\', '\\'), ('/', '/'), ('b', '\x08'), ('f', '\x0c'), ('n', '\n'), ('r', '\r'),
   ('t', '\t')]

/-- The hexadecimal digits and their values.
Specification of what bsp-server/src/message.rs:37 accepts. -/
def hexDigits : List (Char × Nat) :=
  [('0', 0), ('1', 1), ('2', 2), ('3', 3), ('4', 4), ('5', 5), ('6', 6), ('7', 7), ('8', 8),
   ('9', 9), ('a', 10), ('b', 11), ('c', 12), ('d', 13), ('e', 14), ('f', 15), ('A', 10),
   ('B', 11), ('C', 12), ('D', 13), ('E', 14), ('F', 15)]

/-- Four hexadecimal digits. Specification of what bsp-server/src/message.rs:37 accepts. -/
inductive Hex4 : List Char → Nat → Prop
  | mk {a b c d m n p q} : (a, m) ∈ hexDigits → (b, n) ∈ hexDigits → (c, p) ∈ hexDigits →
      (d, q) ∈ hexDigits → Hex4 [a, b, c, d] (m * 4096 + n * 256 + p * 16 + q)

/-- One character of a string. Specification of what bsp-server/src/message.rs:37 accepts. -/
inductive StrChar : List Char → Char → Prop
  | plain {c} : c ≠ '"' → c ≠ '\\' → 0x20 ≤ c.toNat → StrChar [c] c
  | esc {e c} : (e, c) ∈ escapes → StrChar ['\\', e] c
  | unicode {h c} : Hex4 h c.toNat → StrChar ('\\' :: 'u' :: h) c
  | pair {h l hi lo c} : Hex4 h hi → Hex4 l lo → 0xD800 ≤ hi → hi < 0xDC00 → 0xDC00 ≤ lo →
      lo < 0xE000 → c.toNat = 0x10000 + (hi - 0xD800) * 1024 + (lo - 0xDC00) →
      StrChar ('\\' :: 'u' :: h ++ '\\' :: 'u' :: l) c

/-- What stands between the quotes. Specification of what bsp-server/src/message.rs:37 accepts. -/
inductive StrBody : List Char → List Char → Prop
  | nil : StrBody [] []
  | cons {i c b s} : StrChar i c → StrBody b s → StrBody (i ++ b) (c :: s)

/-- One or more digits. Specification of what bsp-server/src/message.rs:37 accepts. -/
def Digits (ds : List Char) : Prop := ds ≠ [] ∧ ∀ c ∈ ds, '0' ≤ c ∧ c ≤ '9'

/-- Integer part: no superfluous zero.
Specification of what bsp-server/src/message.rs:37 accepts. -/
def IntPart (ds : List Char) : Prop := Digits ds ∧ (∀ r, ds = '0' :: r → r = [])

/-- Optional fraction. Specification of what bsp-server/src/message.rs:37 accepts. -/
def Frac (fr : List Char) : Prop := fr = [] ∨ ∃ ds, Digits ds ∧ fr = '.' :: ds

/-- Optional exponent. Specification of what bsp-server/src/message.rs:37 accepts. -/
def Exp (ex : List Char) : Prop :=
  ex = [] ∨ ∃ e sg ds, (e = 'e' ∨ e = 'E') ∧ (sg = [] ∨ sg = ['+'] ∨ sg = ['-']) ∧ Digits ds ∧
    ex = e :: (sg ++ ds)

/-- A number literal: an integer literal in the range of `u64` or (if negative) `i64` is that
integer (for `-0` this depends on the release of serde_json); every other number literal is a double.
Specification of what bsp-server/src/message.rs:37 accepts. -/
inductive Num [FloatText] : List Char → Json → Prop
  | nat {ds} : IntPart ds → Nat.ofDigitChars 10 ds 0 < 2 ^ 64 →
      Num ds (.int (Nat.ofDigitChars 10 ds 0))
  | neg {ds} : IntPart ds → (0 < Nat.ofDigitChars 10 ds 0 ∨ FloatText.minusZeroInt = true) → Nat.ofDigitChars 10 ds 0 ≤ 2 ^ 63 →
      Num ('-' :: ds) (.int (-(Nat.ofDigitChars 10 ds 0 : Int)))
  | float {sg ds fr ex f} : (sg = [] ∨ sg = ['-']) → IntPart ds → Frac fr → Exp ex →
      (fr = [] → ex = [] → sg = [] → 2 ^ 64 ≤ Nat.ofDigitChars 10 ds 0) →
      (fr = [] → ex = [] → sg = ['-'] →
        (Nat.ofDigitChars 10 ds 0 = 0 ∧ FloatText.minusZeroInt = false) ∨ 2 ^ 63 < Nat.ofDigitChars 10 ds 0) →
      FloatText.parse (sg ++ ds ++ fr ++ ex) = some f →
      Num (sg ++ ds ++ fr ++ ex) (.float f)

/-- Values other than arrays and objects.
Specification of what bsp-server/src/message.rs:37 accepts. -/
inductive Scalar [FloatText] : List Char → Json → Prop
  | null : Scalar ['n', 'u', 'l', 'l'] .null
  | true : Scalar ['t', 'r', 'u', 'e'] (.bool true)
  | false : Scalar ['f', 'a', 'l', 's', 'e'] (.bool false)
  | num {cs j} : Num cs j → Scalar cs j
  | str {b s} : StrBody b s → Scalar ('"' :: b ++ ['"']) (.str (String.ofList s))

/-- One or more elements; `V` says which text denotes which element.
Specification of what bsp-server/src/message.rs:37 accepts. -/
inductive Elems (V : List Char → Json → Prop) : List Char → List Json → Prop
  | last {w v x w'} : Ws w → V v x → Ws w' → Elems V (w ++ v ++ w') [x]
  | more {w v x w' r xs} : Ws w → V v x → Ws w' → Elems V r xs →
      Elems V (w ++ v ++ w' ++ ',' :: r) (x :: xs)

/-- One member. Specification of what bsp-server/src/message.rs:37 accepts. -/
inductive Member (V : List Char → Json → Prop) : List Char → String × Json → Prop
  | mk {w b k w1 w2 v x w3} : Ws w → StrBody b k → Ws w1 → Ws w2 → V v x → Ws w3 →
      Member V (w ++ '"' :: b ++ '"' :: w1 ++ ':' :: w2 ++ v ++ w3) (String.ofList k, x)

/-- One or more members. Specification of what bsp-server/src/message.rs:37 accepts. -/
inductive Mems (V : List Char → Json → Prop) : List Char → List (String × Json) → Prop
  | last {m x} : Member V m x → Mems V m [x]
  | more {m x r xs} : Member V m x → Mems V r xs → Mems V (m ++ ',' :: r) (x :: xs)

/-- Arrays and objects. Specification of what bsp-server/src/message.rs:37 accepts. -/
inductive Container (V : List Char → Json → Prop) : List Char → Json → Prop
  | arrEmpty {w} : Ws w → Container V ('[' :: w ++ [']']) (.arr [])
  | arr {e xs} : Elems V e xs → Container V ('[' :: e ++ [']']) (.arr xs)
  | objEmpty {w} : Ws w → Container V ('{' :: w ++ ['}']) (.obj [])
  | obj {m xs} : Mems V m xs → Container V ('{' :: m ++ ['}']) (.obj xs)

/-- The text `cs` denotes the value `j`, arrays and objects nested at most `d` deep.
Specification of what bsp-server/src/message.rs:37 accepts. -/
def Val [FloatText] : Nat → List Char → Json → Prop
  | 0, cs, j => Scalar cs j
  | d + 1, cs, j => Scalar cs j ∨ Container (Val d) cs j

/-- A JSON text: a value between white space.
Specification of what bsp-server/src/message.rs:37 accepts. -/
def JsonText [FloatText] (d : Nat) (cs : List Char) (j : Json) : Prop :=
  ∃ w v w', Ws w ∧ Val d v j ∧ Ws w' ∧ cs = w ++ v ++ w'

end Gram

namespace Text
open Gram

/-! ### White space -/

theorem isWs_iff {c : Char} : isWs c = true ↔ (c = ' ' ∨ c = '\n' ∨ c = '\t' ∨ c = '\r') := by
  simp [isWs, or_assoc]

theorem ws_iff {w : List Char} : Ws w ↔ ∀ c ∈ w, isWs c = true := by
  simp [Ws, isWs_iff]

theorem skipWs_append {w : List Char} (h : Ws w) (r : List Char) : skipWs (w ++ r) = skipWs r := by
  rw [ws_iff] at h
  induction w with
  | nil => rfl
  | cons c w ih =>
    simp only [List.mem_cons, forall_eq_or_imp] at h
    simp only [skipWs, List.cons_append, List.dropWhile_cons, h.1, if_true]
    exact ih h.2

theorem skipWs_cons {c : Char} (h : isWs c = false) (r : List Char) :
    skipWs (c :: r) = c :: r := by
  simp [skipWs, List.dropWhile_cons, h]

theorem skipWs_split (cs : List Char) : ∃ w, Ws w ∧ cs = w ++ skipWs cs := by
  refine ⟨cs.takeWhile isWs, ?_, ?_⟩
  · rw [ws_iff]; intro c hc
    induction cs with
    | nil => simp at hc
    | cons d cs ih =>
      rw [List.takeWhile_cons] at hc
      split at hc
      · rcases List.mem_cons.1 hc with rfl | h
        · assumption
        · exact ih h
      · simp at hc
  · exact (List.takeWhile_append_dropWhile).symm

theorem skipWs_head {cs : List Char} {c r} (h : skipWs cs = c :: r) : isWs c = false := by
  induction cs with
  | nil => simp [skipWs] at h
  | cons d cs ih =>
    rw [skipWs, List.dropWhile_cons] at h
    split at h
    · exact ih h
    · rename_i hd
      simp only [List.cons.injEq] at h
      rw [← h.1]; simpa using hd

theorem skipWs_of_ws {w : List Char} (h : Ws w) : skipWs w = [] := by
  have := skipWs_append h []
  simpa [skipWs] using this

theorem ws_of_skipWs {w : List Char} (h : skipWs w = []) : Ws w := by
  obtain ⟨v, hv, e⟩ := skipWs_split w
  rw [h, List.append_nil] at e
  rw [e]; exact hv

theorem ws_nil : Ws [] := by simp [Ws]

/-! ### Strings -/

theorem char_eq_of_le {a b c : Char} : (a ≤ c ∧ c ≤ b) ↔ (a.toNat ≤ c.toNat ∧ c.toNat ≤ b.toNat) :=
  Iff.rfl

theorem ofNat_toNat (c : Char) : Char.ofNat c.toNat = c := Char.ofNat_toNat c

theorem char_of_toNat {c : Char} {n : Nat} (h : c.toNat = n) : c = Char.ofNat n := by
  rw [← h, ofNat_toNat]

theorem hexVal_iff {c : Char} {n : Nat} : hexVal c = some n ↔ (c, n) ∈ hexDigits := by
  constructor
  · intro h
    unfold hexVal at h
    have key : ∀ m : Nat, m < 103 → ∀ c : Char, c.toNat = m → c = Char.ofNat m :=
      fun m _ c h => char_of_toNat h
    split at h
    · rename_i hc
      rw [char_eq_of_le] at hc
      have h1 : ('0' : Char).toNat = 48 := rfl
      have h2 : ('9' : Char).toNat = 57 := rfl
      rw [h1, h2] at hc
      simp only [Option.some.injEq] at h
      subst h
      have : c.toNat = 48 ∨ c.toNat = 49 ∨ c.toNat = 50 ∨ c.toNat = 51 ∨ c.toNat = 52 ∨
          c.toNat = 53 ∨ c.toNat = 54 ∨ c.toNat = 55 ∨ c.toNat = 56 ∨ c.toNat = 57 := by omega
      rcases this with h | h | h | h | h | h | h | h | h | h <;>
        (rw [h]; rw [char_of_toNat h]; decide)
    · split at h
      · rename_i hc
        rw [char_eq_of_le] at hc
        have h1 : ('a' : Char).toNat = 97 := rfl
        have h2 : ('f' : Char).toNat = 102 := rfl
        rw [h1, h2] at hc
        simp only [Option.some.injEq] at h
        subst h
        have : c.toNat = 97 ∨ c.toNat = 98 ∨ c.toNat = 99 ∨ c.toNat = 100 ∨ c.toNat = 101 ∨
            c.toNat = 102 := by omega
        rcases this with h | h | h | h | h | h <;>
          (rw [h]; rw [char_of_toNat h]; decide)
      · split at h
        · rename_i hc
          rw [char_eq_of_le] at hc
          have h1 : ('A' : Char).toNat = 65 := rfl
          have h2 : ('F' : Char).toNat = 70 := rfl
          rw [h1, h2] at hc
          simp only [Option.some.injEq] at h
          subst h
          have : c.toNat = 65 ∨ c.toNat = 66 ∨ c.toNat = 67 ∨ c.toNat = 68 ∨ c.toNat = 69 ∨
              c.toNat = 70 := by omega
          rcases this with h | h | h | h | h | h <;>
            (rw [h]; rw [char_of_toNat h]; decide)
        · cases h
  · intro h
    have : ∀ p ∈ hexDigits, hexVal p.1 = some p.2 := by decide
    exact this _ h

theorem hex4_sound {cs : List Char} {n r} (h : hex4 cs = some (n, r)) :
    ∃ p, cs = p ++ r ∧ Hex4 p n := by
  unfold hex4 at h
  split at h
  · rename_i a b c d r'
    split at h
    · rename_i m n' p q ha hb hc hd
      simp only [Option.some.injEq, Prod.mk.injEq] at h
      obtain ⟨rfl, rfl⟩ := h
      refine ⟨[a, b, c, d], rfl, ?_⟩
      have := Hex4.mk (hexVal_iff.1 ha) (hexVal_iff.1 hb) (hexVal_iff.1 hc) (hexVal_iff.1 hd)
      have e : ((m * 16 + n') * 16 + p) * 16 + q = m * 4096 + n' * 256 + p * 16 + q := by omega
      rw [e]; exact this
    · cases h
  · cases h

theorem hex4_complete {p : List Char} {n} (h : Hex4 p n) (r : List Char) :
    hex4 (p ++ r) = some (n, r) := by
  cases h with
  | mk ha hb hc hd =>
    simp only [List.cons_append, List.nil_append, hex4, hexVal_iff.2 ha, hexVal_iff.2 hb,
      hexVal_iff.2 hc, hexVal_iff.2 hd]
    simp only [Option.some.injEq, Prod.mk.injEq, and_true]
    omega

theorem hexDigits_lt {c n} (h : (c, n) ∈ hexDigits) : n < 16 := by
  have : ∀ p ∈ hexDigits, p.2 < 16 := by decide
  exact this _ h

theorem hex4_lt {p n} (h : Hex4 p n) : n < 65536 := by
  cases h with
  | mk ha hb hc hd =>
    have := hexDigits_lt ha; have := hexDigits_lt hb
    have := hexDigits_lt hc; have := hexDigits_lt hd
    omega

theorem toNat_ofNat {n : Nat} (h : n.isValidChar) : (Char.ofNat n).toNat = n := by
  rw [Char.ofNat, dif_pos h]; rfl

theorem char_valid (c : Char) : c.toNat < 0xD800 ∨ (0xDFFF < c.toNat ∧ c.toNat < 0x110000) :=
  c.valid

theorem simpleEscape_iff {e c : Char} : simpleEscape e = some c ↔ (e, c) ∈ escapes := by
  constructor
  · intro h
    unfold simpleEscape at h
    repeat' split at h
    all_goals first
      | cases h; done
      | (simp only [Option.some.injEq] at h; subst_vars; decide)
  · intro h
    have : ∀ p ∈ escapes, simpleEscape p.1 = some p.2 := by decide
    exact this _ h

theorem uEscape_sound {cs : List Char} {c r} (h : uEscape cs = some (c, r)) :
    ∃ p, cs = p ++ r ∧ StrChar ('\\' :: 'u' :: p) c := by
  unfold uEscape at h
  split at h
  · cases h
  rename_i n r1 h1
  obtain ⟨p1, e1, x1⟩ := hex4_sound h1
  split at h
  · cases h
  split at h
  · rename_i hn1 hn2
    split at h
    · rename_i c1 c2 r2
      split at h
      · rename_i hc
        obtain ⟨rfl, rfl⟩ := hc
        split at h
        · cases h
        rename_i n2 r3 h2
        obtain ⟨p2, e2, x2⟩ := hex4_sound h2
        split at h
        · rename_i hl
          simp only [Option.some.injEq, Prod.mk.injEq] at h
          obtain ⟨rfl, rfl⟩ := h
          refine ⟨p1 ++ '\\' :: 'u' :: p2, by simp [e1, e2], ?_⟩
          have := StrChar.pair x1 x2 (by omega) (by omega) (by omega) (by omega)
            (c := Char.ofNat ((n - 0xD800) * 0x400 + (n2 - 0xDC00) + 0x10000))
            (by rw [toNat_ofNat]
                · omega
                · right; omega)
          simpa using this
        · cases h
      · cases h
    · cases h
  · rename_i hn1 hn2
    simp only [Option.some.injEq, Prod.mk.injEq] at h
    obtain ⟨rfl, rfl⟩ := h
    refine ⟨p1, e1, ?_⟩
    refine StrChar.unicode ?_
    rw [toNat_ofNat]
    · exact x1
    · have := hex4_lt x1
      by_cases h : n < 0xd800
      · left; exact h
      · right; omega

theorem strItem_sound {cs : List Char} {c r} (hq : cs.head? ≠ some '"')
    (h : strItem cs = some (c, r)) : ∃ p, cs = p ++ r ∧ StrChar p c := by
  unfold strItem at h
  split at h
  · cases h
  rename_i d r1
  split at h
  · rename_i hd
    subst hd
    split at h
    · cases h
    rename_i e r2
    split at h
    · rename_i he
      subst he
      obtain ⟨p, e, x⟩ := uEscape_sound h
      exact ⟨'\\' :: 'u' :: p, by simp [e], x⟩
    · simp only [Option.map_eq_some_iff, Prod.mk.injEq, exists_eq_right_right] at h
      obtain ⟨_, h1, rfl, rfl⟩ := h
      exact ⟨['\\', e], rfl, .esc (simpleEscape_iff.1 h1)⟩
  · rename_i hd
    split at h
    · cases h
    · rename_i hc
      simp only [Option.some.injEq, Prod.mk.injEq] at h
      obtain ⟨rfl, rfl⟩ := h
      refine ⟨[d], rfl, .plain ?_ hd (by omega)⟩
      rintro rfl; simp at hq

theorem strItem_complete {p : List Char} {c} (h : StrChar p c) (r : List Char) :
    strItem (p ++ r) = some (c, r) ∧ ∃ d t, p = d :: t ∧ d ≠ '"' := by
  cases h with
  | plain h1 h2 h3 =>
    refine ⟨?_, _, _, rfl, h1⟩
    simp only [List.cons_append, List.nil_append, strItem, h2, if_false]
    rw [if_neg (by omega)]
  | esc h1 =>
    refine ⟨?_, _, _, rfl, by decide⟩
    rename_i e
    have he : e ≠ 'u' := by
      rintro rfl
      revert h1
      have : ∀ p ∈ escapes, p.1 ≠ 'u' := by decide
      exact fun h => this _ h rfl
    simp [strItem, he, simpleEscape_iff.2 h1]
  | unicode h1 =>
    refine ⟨?_, _, _, rfl, by decide⟩
    simp only [List.cons_append, strItem, if_true, uEscape, hex4_complete h1]
    have := char_valid c
    rw [if_neg (by omega), if_neg (by omega), ofNat_toNat]
  | pair h1 h2 h3 h4 h5 h6 h7 =>
    refine ⟨?_, _, _, rfl, by decide⟩
    rename_i h l hi lo
    have e : Char.ofNat ((hi - 0xD800) * 0x400 + (lo - 0xDC00) + 0x10000) = c := by
      have e' : (hi - 0xD800) * 0x400 + (lo - 0xDC00) + 0x10000 =
          0x10000 + (hi - 0xD800) * 1024 + (lo - 0xDC00) := by omega
      rw [e']; exact (char_of_toNat h7).symm
    simp only [List.cons_append, List.append_assoc, strItem, if_true, uEscape, hex4_complete h1,
      hex4_complete h2, and_self]
    rw [if_neg (by omega), if_pos (by omega), if_pos (by omega), e]

theorem strLoop_sound {n : Nat} : ∀ {cs : List Char} {s r}, strLoop n cs = some (s, r) →
    ∃ b, cs = b ++ '"' :: r ∧ StrBody b s := by
  induction n with
  | zero => intro cs s r h; simp [strLoop] at h
  | succ n ih =>
    intro cs s r h
    unfold strLoop at h
    split at h
    · cases h
    rename_i c r1
    split at h
    · rename_i hc
      simp only [Option.some.injEq, Prod.mk.injEq] at h
      obtain ⟨rfl, rfl⟩ := h
      exact ⟨[], by simp [hc], .nil⟩
    · rename_i hc
      split at h
      · cases h
      rename_i x r2 h1
      obtain ⟨p, e, hx⟩ := strItem_sound (by simpa using hc) h1
      simp only [Option.map_eq_some_iff, Prod.mk.injEq] at h
      obtain ⟨⟨s', r'⟩, h2, rfl, rfl⟩ := h
      obtain ⟨b, e2, hb⟩ := ih h2
      exact ⟨p ++ b, by simp [e, e2], .cons hx hb⟩

theorem strLoop_complete {b : List Char} {s} (h : StrBody b s) (r : List Char) :
    ∀ n, b.length < n → strLoop n (b ++ '"' :: r) = some (s, r) := by
  induction h with
  | nil =>
    intro n hn
    cases n with
    | zero => omega
    | succ n => simp [strLoop]
  | cons hi hb ih =>
    rename_i i c b s
    intro n hn
    cases n with
    | zero => omega
    | succ n =>
      obtain ⟨h1, d, t, rfl, hd⟩ := strItem_complete hi (b ++ '"' :: r)
      simp only [List.cons_append, List.append_assoc] at h1 ⊢
      simp only [strLoop, hd, if_false, h1]
      rw [ih n (by simp at hn; omega)]
      rfl

theorem parseStr_sound {cs : List Char} {s r} (h : parseStr cs = some (s, r)) :
    ∃ b k, cs = b ++ '"' :: r ∧ StrBody b k ∧ s = String.ofList k := by
  simp only [parseStr, Option.map_eq_some_iff, Prod.mk.injEq] at h
  obtain ⟨⟨s', r'⟩, h2, rfl, rfl⟩ := h
  obtain ⟨b, e, hb⟩ := strLoop_sound h2
  exact ⟨b, _, e, hb, rfl⟩

theorem parseStr_complete {b : List Char} {k} (h : StrBody b k) (r : List Char) :
    parseStr (b ++ '"' :: r) = some (String.ofList k, r) := by
  simp only [parseStr]
  rw [strLoop_complete h r _ (by simp; omega)]
  rfl

/-! ### Numbers -/

theorem isDigit_iff {c : Char} : isDigit c = true ↔ '0' ≤ c ∧ c ≤ '9' := by
  simp [isDigit]

/-- The text after a number does not continue it.
Proof helper for the parser behind bsp-server/src/message.rs:37. -/
def NumEnd (r : List Char) : Prop :=
  ∀ c t, r = c :: t → isDigit c = false ∧ c ≠ '.' ∧ c ≠ 'e' ∧ c ≠ 'E'

theorem takeWhile_digits {ds r : List Char} (h : ∀ c ∈ ds, '0' ≤ c ∧ c ≤ '9')
    (hr : ∀ c t, r = c :: t → isDigit c = false) :
    (ds ++ r).takeWhile isDigit = ds ∧ (ds ++ r).dropWhile isDigit = r := by
  induction ds with
  | nil =>
    cases r with
    | nil => simp
    | cons c r => simp [List.takeWhile_cons, List.dropWhile_cons, hr c r rfl]
  | cons d ds ih =>
    simp only [List.mem_cons, forall_eq_or_imp] at h
    have := ih h.2
    simp [List.takeWhile_cons, List.dropWhile_cons, isDigit_iff.2 h.1, this]

theorem takeWhile_mem {cs : List Char} : ∀ c ∈ cs.takeWhile isDigit, '0' ≤ c ∧ c ≤ '9' := by
  induction cs with
  | nil => simp
  | cons d cs ih =>
    intro c hc
    rw [List.takeWhile_cons] at hc
    split at hc
    · rcases List.mem_cons.1 hc with rfl | h
      · exact isDigit_iff.1 (by assumption)
      · exact ih c h
    · simp at hc

theorem lexFrac_sound {cs : List Char} {fr r} (h : lexFrac cs = some (fr, r)) :
    cs = fr ++ r ∧ Frac fr := by
  unfold lexFrac at h
  split at h
  · cases h; exact ⟨rfl, .inl rfl⟩
  · rename_i c t
    split at h
    · rename_i hc
      split at h
      · cases h
      · rename_i hd
        simp only [Option.some.injEq, Prod.mk.injEq] at h
        obtain ⟨rfl, rfl⟩ := h
        refine ⟨by simp [hc], .inr ⟨_, ⟨hd, takeWhile_mem⟩, rfl⟩⟩
    · cases h; exact ⟨rfl, .inl rfl⟩

theorem lexExp_sound {cs : List Char} {ex r} (h : lexExp cs = some (ex, r)) :
    cs = ex ++ r ∧ Exp ex := by
  unfold lexExp at h
  split at h
  · cases h; exact ⟨rfl, .inl rfl⟩
  · rename_i c t
    split at h
    · rename_i hc
      split at h
      · cases h
      · rename_i hd
        simp only [Option.some.injEq, Prod.mk.injEq] at h
        obtain ⟨rfl, rfl⟩ := h
        have key : t = (lexSign t).1 ++ (lexSign t).2 ∧
            ((lexSign t).1 = [] ∨ (lexSign t).1 = ['+'] ∨ (lexSign t).1 = ['-']) := by
          unfold lexSign
          split
          · simp
          · split
            · rename_i hs
              rcases hs with rfl | rfl <;> simp
            · simp
        refine ⟨?_, .inr ⟨c, _, _, hc, key.2, ⟨hd, takeWhile_mem⟩, rfl⟩⟩
        simp only [List.cons_append, List.append_assoc, List.takeWhile_append_dropWhile]
        rw [← key.1]
    · cases h; exact ⟨rfl, .inl rfl⟩

theorem lexMinus_sound (cs : List Char) : cs = (lexMinus cs).1 ++ (lexMinus cs).2 ∧
    ((lexMinus cs).1 = [] ∨ (lexMinus cs).1 = ['-']) := by
  unfold lexMinus
  split
  · simp
  · split
    · rename_i hs; simp [hs]
    · simp

theorem parseNum_sound [FloatText] {cs : List Char} {j r} (h : parseNum cs = some (j, r)) :
    ∃ p, cs = p ++ r ∧ Num p j := by
  obtain ⟨es, hs⟩ := lexMinus_sound cs
  unfold parseNum at h
  revert h
  generalize (lexMinus cs).1 = sg at *
  generalize (lexMinus cs).2 = t at *
  intro h
  simp only at h
  split at h
  · cases h
  rename_i hne
  split at h
  · cases h
  rename_i hz
  have hint : IntPart (t.takeWhile isDigit) := by
    refine ⟨⟨hne, takeWhile_mem⟩, ?_⟩
    intro r' e
    rw [e] at hz
    cases r' with
    | nil => rfl
    | cons a b => exact absurd ⟨by simp, by simp⟩ hz
  have et : t = t.takeWhile isDigit ++ t.dropWhile isDigit :=
    (List.takeWhile_append_dropWhile).symm
  revert et h hint
  generalize t.takeWhile isDigit = ds
  generalize t.dropWhile isDigit = r1
  intro h hint et
  split at h
  · cases h
  rename_i fr r2 h1
  obtain ⟨e2, hfr⟩ := lexFrac_sound h1
  split at h
  · cases h
  rename_i ex r3 h2
  obtain ⟨e3, hex⟩ := lexExp_sound h2
  have ecs : cs = sg ++ ds ++ fr ++ ex ++ r3 := by
    rw [es, et, e2, e3]; simp
  split at h
  · rename_i hnil
    obtain ⟨rfl, rfl⟩ := hnil
    split at h
    · rename_i i hi
      simp only [Option.some.injEq, Prod.mk.injEq] at h
      obtain ⟨rfl, rfl⟩ := h
      refine ⟨sg ++ ds, by simpa using ecs, ?_⟩
      unfold fitInt at hi
      rcases hs with rfl | rfl
      · simp only [ne_eq, not_true_eq_false, decide_false, Bool.false_eq_true, if_false] at hi
        split at hi
        · rename_i hlt
          simp only [Option.some.injEq] at hi
          subst hi
          exact .nat hint hlt
        · cases hi
      · simp only [ne_eq, List.cons_ne_nil, not_false_eq_true, decide_true, if_true] at hi
        split at hi
        · rename_i hlt
          simp only [Option.some.injEq] at hi
          subst hi
          exact .neg hint hlt.1 hlt.2
        · cases hi
    · rename_i hi
      simp only [Option.map_eq_some_iff, Prod.mk.injEq] at h
      obtain ⟨f, hf, rfl, rfl⟩ := h
      refine ⟨sg ++ ds ++ [] ++ [], by simpa using ecs, ?_⟩
      refine .float hs hint (.inl rfl) (.inl rfl) ?_ ?_ (by simpa using hf)
      · rintro - - rfl
        unfold fitInt at hi
        simp only [ne_eq, not_true_eq_false, decide_false, Bool.false_eq_true, if_false] at hi
        split at hi
        · cases hi
        · omega
      · rintro - - rfl
        unfold fitInt at hi
        simp only [ne_eq, List.cons_ne_nil, not_false_eq_true, decide_true, if_true] at hi
        split at hi
        · cases hi
        · cases hz : FloatText.minusZeroInt <;> simp [hz] at * <;> omega
  · rename_i hnil
    simp only [Option.map_eq_some_iff, Prod.mk.injEq] at h
    obtain ⟨f, hf, rfl, rfl⟩ := h
    refine ⟨sg ++ ds ++ fr ++ ex, ecs, ?_⟩
    refine .float hs hint hfr hex ?_ ?_ hf
    · intro a b; exact absurd ⟨a, b⟩ hnil
    · intro a b; exact absurd ⟨a, b⟩ hnil

theorem digit_ne {c : Char} (h : '0' ≤ c ∧ c ≤ '9') : c ≠ '-' ∧ c ≠ '+' ∧ c ≠ '.' := by
  refine ⟨?_, ?_, ?_⟩ <;> (rintro rfl; revert h; decide)

theorem lexMinus_complete {sg ds r : List Char} (hs : sg = [] ∨ sg = ['-']) (hd : Digits ds) :
    lexMinus (sg ++ ds ++ r) = (sg, ds ++ r) := by
  rcases hs with rfl | rfl
  · obtain ⟨hne, hm⟩ := hd
    cases ds with
    | nil => exact absurd rfl hne
    | cons c ds =>
      have := (digit_ne (hm c (by simp))).1
      simp [lexMinus, this]
  · simp [lexMinus]

theorem lexExp_complete {ex r : List Char} (h : Exp ex) (hr : NumEnd r) :
    lexExp (ex ++ r) = some (ex, r) := by
  rcases h with rfl | ⟨e, sg, ds, he, hs, hd, rfl⟩
  · cases r with
    | nil => rfl
    | cons c r =>
      have := hr c r rfl
      simp [lexExp, this.2.2.1, this.2.2.2]
  · have hsg : lexSign (sg ++ ds ++ r) = (sg, ds ++ r) := by
      rcases hs with rfl | rfl | rfl
      · obtain ⟨hne, hm⟩ := hd
        cases ds with
        | nil => exact absurd rfl hne
        | cons c ds =>
          have := digit_ne (hm c (by simp))
          simp [lexSign, this.1, this.2.1]
      · simp [lexSign]
      · simp [lexSign]
    have key := takeWhile_digits hd.2 (fun c t e => (hr c t e).1)
    simp only [List.cons_append, lexExp, he, if_true, hsg, key.1, key.2, hd.1, if_false]

theorem frac_end {ex r : List Char} (h : Exp ex) (hr : NumEnd r) :
    ∀ c t, ex ++ r = c :: t → isDigit c = false ∧ c ≠ '.' := by
  intro c t e
  rcases h with rfl | ⟨e', sg, ds, he, hs, hd, rfl⟩
  · have := hr c t (by simpa using e); exact ⟨this.1, this.2.1⟩
  · simp only [List.cons_append, List.cons.injEq] at e
    rw [← e.1]
    rcases he with rfl | rfl <;> decide

theorem lexFrac_complete {fr r : List Char} (h : Frac fr)
    (hr : ∀ c t, r = c :: t → isDigit c = false ∧ c ≠ '.') :
    lexFrac (fr ++ r) = some (fr, r) := by
  rcases h with rfl | ⟨ds, hd, rfl⟩
  · cases r with
    | nil => rfl
    | cons c r =>
      have := hr c r rfl
      simp [lexFrac, this.2]
  · have key := takeWhile_digits hd.2 (fun c t e => (hr c t e).1)
    simp only [List.cons_append, lexFrac, if_true, key.1, key.2, hd.1, if_false]

theorem int_end {fr r : List Char} (h : Frac fr)
    (hr : ∀ c t, r = c :: t → isDigit c = false ∧ c ≠ '.') :
    ∀ c t, fr ++ r = c :: t → isDigit c = false := by
  intro c t e
  rcases h with rfl | ⟨ds, hd, rfl⟩
  · exact (hr c t (by simpa using e)).1
  · simp only [List.cons_append, List.cons.injEq] at e
    rw [← e.1]; decide

theorem parseNum_lex [FloatText] {sg ds fr ex r : List Char} (hs : sg = [] ∨ sg = ['-'])
    (hi : IntPart ds) (hf : Frac fr) (he : Exp ex) (hr : NumEnd r) :
    parseNum (sg ++ ds ++ fr ++ ex ++ r) =
      (if fr = [] ∧ ex = [] then
          match fitInt (sg ≠ []) (Nat.ofDigitChars 10 ds 0) with
          | some i => some (.int i, r)
          | none => (FloatText.parse (sg ++ ds)).map fun f => (.float f, r)
        else (FloatText.parse (sg ++ ds ++ fr ++ ex)).map fun f => (.float f, r)) := by
  have h1 := lexMinus_complete (r := fr ++ (ex ++ r)) hs hi.1
  have h2 := takeWhile_digits hi.1.2 (int_end hf (frac_end he hr))
  have h3 := lexFrac_complete hf (frac_end he hr)
  have h4 := lexExp_complete he hr
  have e : sg ++ ds ++ fr ++ ex ++ r = sg ++ ds ++ (fr ++ (ex ++ r)) := by simp
  have hz : ¬ (1 < ds.length ∧ ds.head? = some '0') := by
    rintro ⟨a, b⟩
    cases ds with
    | nil => simp at b
    | cons c t =>
      simp only [List.head?_cons, Option.some.injEq] at b
      subst b
      have := hi.2 t rfl
      subst this
      simp at a
  unfold parseNum
  rw [e, h1]
  simp only [h2.1, h2.2, hi.1.1, if_false, hz, h3, h4]
  rfl

theorem frac_nil : Frac [] := .inl rfl
theorem exp_nil : Exp [] := .inl rfl

theorem parseNum_complete [FloatText] {p : List Char} {j} (h : Num p j) {r : List Char}
    (hr : NumEnd r) : parseNum (p ++ r) = some (j, r) := by
  cases h with
  | nat hi hlt =>
    have := parseNum_lex (sg := []) (.inl rfl) hi frac_nil exp_nil hr
    simp only [List.nil_append, List.append_nil] at this
    rw [this]
    simp [fitInt, hlt]
  | neg hi hpos hlt =>
    rename_i ds
    have := parseNum_lex (sg := ['-']) (.inr rfl) hi frac_nil exp_nil hr
    simp only [List.append_nil] at this
    have e : '-' :: ds ++ r = ['-'] ++ ds ++ r := by simp
    rw [e, this]
    simp [fitInt, hpos, hlt]
  | float hs hi hf he hA hB hp =>
    rename_i sg ds fr ex f
    rw [parseNum_lex hs hi hf he hr]
    split
    · rename_i hnil
      obtain ⟨rfl, rfl⟩ := hnil
      have : fitInt (sg ≠ []) (Nat.ofDigitChars 10 ds 0) = none := by
        unfold fitInt
        rcases hs with rfl | rfl
        · have := hA rfl rfl rfl
          simp only [ne_eq, not_true_eq_false, decide_false, Bool.false_eq_true, if_false]
          rw [if_neg (by omega)]
        · have := hB rfl rfl rfl
          simp only [ne_eq, List.cons_ne_nil, not_false_eq_true, decide_true, if_true]
          rw [if_neg (by cases hz : FloatText.minusZeroInt <;> simp [hz] at * <;> omega)]
      rw [this]
      simp only [List.append_nil] at hp
      simp [hp]
    · rw [hp]; rfl

/-- A number starts with a minus or a digit. -/
theorem num_head [FloatText] {p : List Char} {j} (h : Num p j) :
    ∃ c t, p = c :: t ∧ (c = '-' ∨ isDigit c = true) := by
  have key : ∀ ds rest : List Char, Digits ds →
      ∃ c t, ds ++ rest = c :: t ∧ (c = '-' ∨ isDigit c = true) := by
    rintro ds rest ⟨hne, hm⟩
    cases ds with
    | nil => exact absurd rfl hne
    | cons c ds => exact ⟨c, _, rfl, .inr (isDigit_iff.2 (hm c (by simp)))⟩
  cases h with
  | nat hi _ => simpa using key _ [] hi.1
  | neg hi _ _ => exact ⟨_, _, rfl, .inl rfl⟩
  | @float sg ds fr ex f hs hi _ _ _ _ _ =>
    rcases hs with rfl | rfl
    · simpa using key ds (fr ++ ex) hi.1
    · exact ⟨'-', ds ++ fr ++ ex, by simp, .inl rfl⟩

/-! ### Words -/

theorem ident_iff {w cs r : List Char} : ident w cs = some r ↔ cs = w ++ r := by
  induction w generalizing cs with
  | nil => simp [ident]
  | cons c w ih =>
    cases cs with
    | nil => simp [ident]
    | cons d cs =>
      simp only [ident]
      split
      · rename_i h; subst h; simp [ih]
      · rename_i h
        simp only [reduceCtorEq, List.cons_append, List.cons.injEq, false_iff, not_and]
        intro e; exact absurd e.symm h

/-! ### Arrays and objects, for any value parser that implements `V` -/

/-- What may follow a value inside an array or object, or at the end of the text.
Proof helper for the parser behind bsp-server/src/message.rs:37. -/
def Follow (r : List Char) : Prop := ∀ c t, r = c :: t → isWs c = true ∨ c = ',' ∨ c = ']' ∨ c = '}'

theorem Follow.numEnd {r : List Char} (h : Follow r) : NumEnd r := by
  intro c t e
  rcases h c t e with h | rfl | rfl | rfl
  · rw [isWs_iff] at h
    rcases h with rfl | rfl | rfl | rfl <;> decide
  all_goals decide

theorem follow_ws {w r : List Char} (hw : Ws w) (hr : Follow r) : Follow (w ++ r) := by
  cases w with
  | nil => exact hr
  | cons c w =>
    intro d t e
    simp only [List.cons_append, List.cons.injEq] at e
    rw [← e.1]
    exact .inl (ws_iff.1 hw c (by simp))

theorem follow_cons {c : Char} {t : List Char} (h : c = ',' ∨ c = ']' ∨ c = '}') :
    Follow (c :: t) := by
  intro d t' e
  cases e
  exact .inr h

/-- The parser `pv` accepts what `V` allows, after white space.
Proof helper for the parser behind bsp-server/src/message.rs:37. -/
structure Sound (pv : List Char → Option (Json × List Char)) (V : List Char → Json → Prop) : Prop where
  sound : ∀ {cs j r}, pv cs = some (j, r) → ∃ w v, Ws w ∧ cs = w ++ v ++ r ∧ V v j

/-- The parser `pv` accepts all that `V` allows, after white space.
Proof helper for the parser behind bsp-server/src/message.rs:37. -/
structure Complete (pv : List Char → Option (Json × List Char)) (V : List Char → Json → Prop) :
    Prop where
  complete : ∀ {w v j r}, Ws w → V v j → Follow r → pv (w ++ v ++ r) = some (j, r)
  /-- a value starts neither with white space nor with a closing bracket -/
  head : ∀ {v j}, V v j → ∃ c t, v = c :: t ∧ isWs c = false ∧ c ≠ ']' ∧ c ≠ '}'

section
variable {pv : List Char → Option (Json × List Char)} {V : List Char → Json → Prop}

theorem elems_sound (S : Sound pv V) : ∀ {n first cs xs r}, elems pv n first cs = some (xs, r) →
    (xs = [] ∧ ∃ w, Ws w ∧ cs = w ++ ']' :: r) ∨
    (∃ w e, Ws w ∧ Elems V e xs ∧
      cs = (if first = true then e ++ ']' :: r else w ++ ',' :: (e ++ ']' :: r))) := by
  intro n
  induction n with
  | zero => intro first cs xs r h; simp [elems] at h
  | succ n ih =>
    intro first cs xs r h
    unfold elems at h
    split at h
    · cases h
    rename_i c r1 hc
    obtain ⟨w, hw, ew⟩ := skipWs_split cs
    rw [hc] at ew
    split at h
    · rename_i e; subst e
      simp only [Option.some.injEq, Prod.mk.injEq] at h
      obtain ⟨rfl, rfl⟩ := h
      exact .inl ⟨rfl, w, hw, ew⟩
    rename_i hne
    split at h
    · cases h
    rename_i cs2 hcs2
    split at h
    · cases h
    rename_i x r2 hpv
    simp only [Option.map_eq_some_iff, Prod.mk.injEq] at h
    obtain ⟨⟨xs', r'⟩, h2, rfl, rfl⟩ := h
    obtain ⟨w1, v, hw1, e1, hv⟩ := S.sound hpv
    -- the elements from here on, as a text
    have tail : ∃ e, Elems V e (x :: xs') ∧ cs2 = e ++ ']' :: r' := by
      rcases ih h2 with ⟨rfl, w2, hw2, e2⟩ | ⟨w2, e, hw2, he, e2⟩
      · exact ⟨w1 ++ v ++ w2, .last hw1 hv hw2, by simp [e1, e2]⟩
      · simp only [Bool.false_eq_true, if_false] at e2
        exact ⟨w1 ++ v ++ w2 ++ ',' :: e, .more hw1 hv hw2 he, by simp [e1, e2]⟩
    obtain ⟨e, he, ecs2⟩ := tail
    right
    cases first with
    | true =>
      simp only [if_true, Option.some.injEq] at hcs2
      -- the white space before belongs to the first element
      refine ⟨[], w ++ e, ws_nil, ?_, ?_⟩
      · cases he with
        | last a b c =>
          rename_i w0 v0 w0'
          have : Elems V ((w ++ w0) ++ v0 ++ w0') [x] := .last (by
            intro c hc; rcases List.mem_append.1 hc with h | h
            · exact hw c h
            · exact a c h) b c
          simpa using this
        | more a b c d =>
          rename_i w0 v0 w0' r0
          have : Elems V ((w ++ w0) ++ v0 ++ w0' ++ ',' :: r0) (x :: xs') := .more (by
            intro c hc; rcases List.mem_append.1 hc with h | h
            · exact hw c h
            · exact a c h) b c d
          simpa using this
      · simp only [if_true]
        rw [ew, hcs2, ecs2]; simp
    | false =>
      simp only [Bool.false_eq_true, if_false] at hcs2
      split at hcs2
      · rename_i hcomma
        subst hcomma
        split at hcs2
        · cases hcs2
        rename_i d r3 hd
        split at hcs2
        · cases hcs2
        simp only [Option.some.injEq] at hcs2
        obtain ⟨w3, hw3, e3⟩ := skipWs_split r1
        rw [hd, hcs2, ecs2] at e3
        refine ⟨w, w3 ++ e, hw, ?_, ?_⟩
        · cases he with
          | last a b c =>
            rename_i w0 v0 w0'
            have : Elems V ((w3 ++ w0) ++ v0 ++ w0') [x] := .last (by
              intro c hc; rcases List.mem_append.1 hc with h | h
              · exact hw3 c h
              · exact a c h) b c
            simpa using this
          | more a b c d =>
            rename_i w0 v0 w0' r0
            have : Elems V ((w3 ++ w0) ++ v0 ++ w0' ++ ',' :: r0) (x :: xs') := .more (by
              intro c hc; rcases List.mem_append.1 hc with h | h
              · exact hw3 c h
              · exact a c h) b c d
            simpa using this
        · simp only [Bool.false_eq_true, if_false]
          rw [ew, e3]; simp
      · cases hcs2

theorem elems_close {n : Nat} {w r : List Char} (hw : Ws w) (first : Bool) :
    elems pv (n + 1) first (w ++ ']' :: r) = some ([], r) := by
  unfold elems
  rw [skipWs_append hw, skipWs_cons (by decide)]
  simp

/-- The text of one or more elements starts (after white space) with a value. -/
theorem elems_first (C : Complete pv V) {e xs} (h : Elems V e xs) :
    ∃ w c t, Ws w ∧ e = w ++ c :: t ∧ isWs c = false ∧ c ≠ ']' := by
  cases h with
  | last a b d =>
    obtain ⟨c, t, rfl, h1, h2, _⟩ := C.head b
    exact ⟨_, c, _, a, by simp; rfl, h1, h2⟩
  | more a b d _ =>
    obtain ⟨c, t, rfl, h1, h2, _⟩ := C.head b
    exact ⟨_, c, _, a, by simp; rfl, h1, h2⟩

/-- One step of the loop on an element. -/
theorem elems_step (C : Complete pv V) {n : Nat} {w v x rest} (hw : Ws w) (hv : V v x)
    (hr : Follow rest) :
    elems pv (n + 1) true (w ++ v ++ rest) =
      (elems pv n false rest).map fun p => (x :: p.1, p.2) := by
  obtain ⟨c, t, rfl, h1, h2, _⟩ := C.head hv
  have hp : pv (c :: t ++ rest) = some (x, rest) := by
    simpa using C.complete ws_nil hv hr
  conv => lhs; unfold elems
  rw [List.append_assoc, skipWs_append hw, List.cons_append, skipWs_cons h1]
  simp only [h2, if_false, if_true]
  rw [← List.cons_append, hp]

theorem elems_comma (C : Complete pv V) {n : Nat} {w e xs rest} (hw : Ws w) (he : Elems V e xs) :
    elems pv (n + 1) false (w ++ ',' :: (e ++ rest)) = elems pv (n + 1) true (e ++ rest) := by
  obtain ⟨w1, c, t, hw1, rfl, h1, h2⟩ := elems_first C he
  unfold elems
  have e1 : skipWs (w1 ++ c :: t ++ rest) = c :: (t ++ rest) := by
    rw [List.append_assoc, skipWs_append hw1, List.cons_append, skipWs_cons h1]
  rw [skipWs_append hw, skipWs_cons (by decide)]
  simp only [e1]
  simp [h2]

theorem elems_complete (C : Complete pv V) {e xs} (h : Elems V e xs) :
    ∀ {n r}, e.length < n → elems pv n true (e ++ ']' :: r) = some (xs, r) := by
  induction h with
  | last a b c =>
    rename_i w v x w'
    intro n r hn
    cases n with
    | zero => omega
    | succ n =>
      obtain ⟨d, t, rfl, _⟩ := C.head b
      have := elems_step C (n := n) a b (rest := w' ++ ']' :: r) (follow_ws c (follow_cons (by simp)))
      simp only [List.append_assoc] at this ⊢
      rw [this]
      cases n with
      | zero => simp at hn
      | succ n => rw [elems_close c]; rfl
  | more a b c d ih =>
    rename_i w v x w' rr xs
    intro n r hn
    cases n with
    | zero => omega
    | succ n =>
      obtain ⟨d', t, rfl, _⟩ := C.head b
      have := elems_step C (n := n) a b (rest := w' ++ ',' :: (rr ++ ']' :: r))
        (follow_ws c (follow_cons (by simp)))
      simp only [List.append_assoc, List.cons_append] at this ⊢
      rw [this]
      cases n with
      | zero => simp at hn
      | succ n =>
        rw [elems_comma C c d, ih (by simp at hn; omega)]
        rfl

/-! objects -/

theorem member_sound (S : Sound pv V) {cs x r} (h : member pv cs = some (x, r)) :
    ∀ {w3}, Ws w3 → ∃ m, cs = m ++ r ∧ Member V (m ++ w3) x := by
  intro w4 hw4
  unfold member at h
  split at h
  · cases h
  rename_i c r1
  split at h
  · rename_i hc
    subst hc
    split at h
    · cases h
    rename_i k r2 hk
    obtain ⟨b, k', e1, hb, rfl⟩ := parseStr_sound hk
    obtain ⟨w1, hw1, e2⟩ := skipWs_split r2
    split at h
    · cases h
    rename_i c r3 h3
    rw [h3] at e2
    split at h
    · rename_i hc
      subst hc
      simp only [Option.map_eq_some_iff, Prod.mk.injEq] at h
      obtain ⟨⟨x', r'⟩, h2, rfl, rfl⟩ := h
      obtain ⟨w2, v, hw2, e4, hv⟩ := S.sound h2
      refine ⟨'"' :: b ++ '"' :: w1 ++ ':' :: w2 ++ v, by simp [e1, e2, e4], ?_⟩
      have := Member.mk (V := V) ws_nil hb hw1 hw2 hv hw4
      simpa using this
    · cases h
  · cases h

theorem Member.ws {V : List Char → Json → Prop} {w m x} (hw : Ws w) (h : Member V m x) :
    Member V (w ++ m) x := by
  cases h with
  | mk a b c d e f =>
    rename_i w0 b0 k0 w1 w2 v x w3
    have : Member V ((w ++ w0) ++ '"' :: b0 ++ '"' :: w1 ++ ':' :: w2 ++ v ++ w3)
        (String.ofList k0, x) := .mk (by
      intro c hc; rcases List.mem_append.1 hc with h | h
      · exact hw c h
      · exact a c h) b c d e f
    simpa using this

theorem Mems.ws {V : List Char → Json → Prop} {w m xs} (hw : Ws w) (h : Mems V m xs) :
    Mems V (w ++ m) xs := by
  cases h with
  | last a => exact .last (Member.ws hw a)
  | more a b =>
    have := Mems.more (Member.ws hw a) b
    simpa using this

theorem mems_sound (S : Sound pv V) : ∀ {n first cs xs r}, mems pv n first cs = some (xs, r) →
    (xs = [] ∧ ∃ w, Ws w ∧ cs = w ++ '}' :: r) ∨
    (∃ w e, Ws w ∧ Mems V e xs ∧
      cs = (if first = true then e ++ '}' :: r else w ++ ',' :: (e ++ '}' :: r))) := by
  intro n
  induction n with
  | zero => intro first cs xs r h; simp [mems] at h
  | succ n ih =>
    intro first cs xs r h
    unfold mems at h
    split at h
    · cases h
    rename_i c r1 hc
    obtain ⟨w, hw, ew⟩ := skipWs_split cs
    rw [hc] at ew
    split at h
    · rename_i e; subst e
      simp only [Option.some.injEq, Prod.mk.injEq] at h
      obtain ⟨rfl, rfl⟩ := h
      exact .inl ⟨rfl, w, hw, ew⟩
    rename_i hne
    split at h
    · cases h
    rename_i cs2 hcs2
    split at h
    · cases h
    rename_i x r2 hpv
    simp only [Option.map_eq_some_iff, Prod.mk.injEq] at h
    obtain ⟨⟨xs', r'⟩, h2, rfl, rfl⟩ := h
    have tail : ∃ e, Mems V e (x :: xs') ∧ cs2 = e ++ '}' :: r' := by
      rcases ih h2 with ⟨rfl, w2, hw2, e2⟩ | ⟨w2, e, hw2, he, e2⟩
      · obtain ⟨m, em, hm⟩ := member_sound S hpv hw2
        exact ⟨m ++ w2, .last hm, by simp [em, e2]⟩
      · obtain ⟨m, em, hm⟩ := member_sound S hpv hw2
        simp only [Bool.false_eq_true, if_false] at e2
        exact ⟨m ++ w2 ++ ',' :: e, .more hm he, by simp [em, e2]⟩
    obtain ⟨e, he, ecs2⟩ := tail
    right
    cases first with
    | true =>
      simp only [if_true, Option.some.injEq] at hcs2
      refine ⟨[], w ++ e, ws_nil, Mems.ws hw he, ?_⟩
      simp only [if_true]
      rw [ew, hcs2, ecs2]; simp
    | false =>
      simp only [Bool.false_eq_true, if_false] at hcs2
      split at hcs2
      · rename_i hcomma
        subst hcomma
        simp only [Option.some.injEq] at hcs2
        obtain ⟨w3, hw3, e3⟩ := skipWs_split r1
        rw [hcs2, ecs2] at e3
        refine ⟨w, w3 ++ e, hw, Mems.ws hw3 he, ?_⟩
        simp only [Bool.false_eq_true, if_false]
        rw [ew, e3]; simp
      · cases hcs2

theorem mems_close {n : Nat} {w r : List Char} (hw : Ws w) (first : Bool) :
    mems pv (n + 1) first (w ++ '}' :: r) = some ([], r) := by
  unfold mems
  rw [skipWs_append hw, skipWs_cons (by decide)]
  simp

/-- One step of the loop on a member: the value's trailing white space is left to the loop. -/
theorem mems_step (C : Complete pv V) {n : Nat} {m x rest} (h : Member V m x) (hr : Follow rest) :
    ∃ w, Ws w ∧ mems pv (n + 1) true (m ++ rest) =
      (mems pv n false (w ++ rest)).map fun p => (x :: p.1, p.2) := by
  cases h with
  | mk a b c d e f =>
    rename_i w0 b0 k0 w1 w2 v x w3
    refine ⟨w3, f, ?_⟩
    have hp : pv (w2 ++ v ++ (w3 ++ rest)) = some (x, w3 ++ rest) :=
      C.complete d e (follow_ws f hr)
    have hm : member pv ('"' :: (b0 ++ '"' :: (w1 ++ ':' :: (w2 ++ v ++ (w3 ++ rest))))) =
        some ((String.ofList k0, x), w3 ++ rest) := by
      unfold member
      simp only [if_true, parseStr_complete b]
      rw [skipWs_append c, skipWs_cons (by decide)]
      simp only [if_true, hp, Option.map_some]
    conv => lhs; unfold mems
    have es : skipWs (w0 ++ '"' :: b0 ++ '"' :: w1 ++ ':' :: w2 ++ v ++ w3 ++ rest) =
        '"' :: (b0 ++ '"' :: (w1 ++ ':' :: (w2 ++ v ++ (w3 ++ rest)))) := by
      have : w0 ++ '"' :: b0 ++ '"' :: w1 ++ ':' :: w2 ++ v ++ w3 ++ rest =
        w0 ++ '"' :: (b0 ++ '"' :: (w1 ++ ':' :: (w2 ++ v ++ (w3 ++ rest)))) := by simp
      rw [this, skipWs_append a, skipWs_cons (by decide)]
    rw [es]
    simp only [if_true, hm]
    simp

theorem mems_comma {n : Nat} {w e xs rest} (hw : Ws w) (he : Mems V e xs) :
    mems pv (n + 1) false (w ++ ',' :: (e ++ rest)) = mems pv (n + 1) true (e ++ rest) := by
  have key : ∃ w1 t, Ws w1 ∧ e = w1 ++ '"' :: t := by
    cases he with
    | last a => cases a with | mk a => exact ⟨_, _, a, by simp; rfl⟩
    | more a _ => cases a with | mk a => exact ⟨_, _, a, by simp; rfl⟩
  obtain ⟨w1, t, hw1, rfl⟩ := key
  unfold mems
  have e1 : skipWs (w1 ++ '"' :: t ++ rest) = '"' :: (t ++ rest) := by
    rw [List.append_assoc, skipWs_append hw1, List.cons_append, skipWs_cons (by decide)]
  rw [skipWs_append hw, skipWs_cons (by decide)]
  simp only [e1]
  simp

theorem member_length {m x} (h : Member V m x) : 2 ≤ m.length := by
  cases h; simp; omega

theorem mems_complete (C : Complete pv V) {e xs} (h : Mems V e xs) :
    ∀ {n r}, e.length < n → mems pv n true (e ++ '}' :: r) = some (xs, r) := by
  induction h with
  | last a =>
    intro n r hn
    have := member_length a
    cases n with
    | zero => omega
    | succ n =>
      obtain ⟨w, hw, e⟩ := mems_step C (n := n) a (rest := '}' :: r) (follow_cons (by simp))
      rw [e]
      cases n with
      | zero => omega
      | succ n => rw [mems_close hw]; rfl
  | more a b ih =>
    rename_i m x rr xs
    intro n r hn
    have := member_length a
    cases n with
    | zero => omega
    | succ n =>
      obtain ⟨w, hw, e⟩ := mems_step C (n := n) a (rest := ',' :: (rr ++ '}' :: r))
        (follow_cons (by simp))
      have e' : m ++ ',' :: rr ++ '}' :: r = m ++ ',' :: (rr ++ '}' :: r) := by simp
      rw [e', e]
      simp only [List.length_append, List.length_cons] at hn
      cases n with
      | zero => omega
      | succ n =>
        rw [mems_comma hw b, ih (by omega)]
        rfl

end

/-! ### Values -/

theorem parseValue_unfold [FloatText] (d : Nat) (cs : List Char) : parseValue d cs =
    match skipWs cs with
    | [] => none
    | c :: r =>
      if c = 'n' then (ident ['u', 'l', 'l'] r).map (.null, ·)
      else if c = 't' then (ident ['r', 'u', 'e'] r).map (.bool true, ·)
      else if c = 'f' then (ident ['a', 'l', 's', 'e'] r).map (.bool false, ·)
      else if c = '"' then (parseStr r).map fun p => (.str p.1, p.2)
      else if c = '[' then
        match d with
        | 0 => none
        | d + 1 => (elems (parseValue d) (r.length + 1) true r).map fun p => (.arr p.1, p.2)
      else if c = '{' then
        match d with
        | 0 => none
        | d + 1 => (mems (parseValue d) (r.length + 1) true r).map fun p => (.obj p.1, p.2)
      else if c = '-' ∨ isDigit c = true then parseNum (c :: r)
      else none := by
  conv => lhs; unfold parseValue
  rfl

theorem val_scalar [FloatText] {d cs j} (h : Scalar cs j) : Val d cs j := by
  cases d with
  | zero => exact h
  | succ d => exact .inl h

theorem sound_step [FloatText] (d : Nat)
    (ih : ∀ d', d = d' + 1 → Sound (parseValue d') (Val d')) : Sound (parseValue d) (Val d) := by
  constructor
  intro cs j r h
  rw [parseValue_unfold] at h
  obtain ⟨w, hw, ew⟩ := skipWs_split cs
  split at h
  · cases h
  rename_i c r1 hc
  rw [hc] at ew
  suffices ∃ v, c :: r1 = v ++ r ∧ Val d v j by
    obtain ⟨v, e, hv⟩ := this
    exact ⟨w, v, hw, by rw [ew, e]; simp, hv⟩
  split at h
  · rename_i e; subst e
    simp only [Option.map_eq_some_iff, Prod.mk.injEq, ident_iff, exists_eq_right_right] at h
    obtain ⟨h1, h2⟩ := h
    subst h2
    exact ⟨['n', 'u', 'l', 'l'], by simp [h1], val_scalar .null⟩
  split at h
  · rename_i e; subst e
    simp only [Option.map_eq_some_iff, Prod.mk.injEq, ident_iff, exists_eq_right_right] at h
    obtain ⟨h1, h2⟩ := h
    subst h2
    exact ⟨['t', 'r', 'u', 'e'], by simp [h1], val_scalar .true⟩
  split at h
  · rename_i e; subst e
    simp only [Option.map_eq_some_iff, Prod.mk.injEq, ident_iff, exists_eq_right_right] at h
    obtain ⟨h1, h2⟩ := h
    subst h2
    exact ⟨['f', 'a', 'l', 's', 'e'], by simp [h1], val_scalar .false⟩
  split at h
  · rename_i e; subst e
    simp only [Option.map_eq_some_iff, Prod.mk.injEq] at h
    obtain ⟨⟨s, r'⟩, h1, rfl, rfl⟩ := h
    obtain ⟨b, k, e, hb, rfl⟩ := parseStr_sound h1
    exact ⟨'"' :: b ++ ['"'], by simp [e], val_scalar (.str hb)⟩
  split at h
  · rename_i e; subst e
    cases d with
    | zero => cases h
    | succ d =>
      simp only [Option.map_eq_some_iff, Prod.mk.injEq] at h
      obtain ⟨⟨xs, r'⟩, h1, rfl, rfl⟩ := h
      rcases elems_sound (ih d rfl) h1 with ⟨rfl, w2, hw2, e2⟩ | ⟨w2, e, hw2, he, e2⟩
      · exact ⟨'[' :: w2 ++ [']'], by simp [e2], .inr (.arrEmpty hw2)⟩
      · exact ⟨'[' :: e ++ [']'], by simp [e2], .inr (.arr he)⟩
  split at h
  · rename_i e; subst e
    cases d with
    | zero => cases h
    | succ d =>
      simp only [Option.map_eq_some_iff, Prod.mk.injEq] at h
      obtain ⟨⟨xs, r'⟩, h1, rfl, rfl⟩ := h
      rcases mems_sound (ih d rfl) h1 with ⟨rfl, w2, hw2, e2⟩ | ⟨w2, e, hw2, he, e2⟩
      · exact ⟨'{' :: w2 ++ ['}'], by simp [e2], .inr (.objEmpty hw2)⟩
      · exact ⟨'{' :: e ++ ['}'], by simp [e2], .inr (.obj he)⟩
  split at h
  · obtain ⟨p, e, hp⟩ := parseNum_sound h
    exact ⟨p, e, val_scalar (.num hp)⟩
  · cases h

theorem parseValue_sound [FloatText] (d : Nat) : Sound (parseValue d) (Val d) := by
  induction d with
  | zero => exact sound_step 0 (fun d' h => by omega)
  | succ d ih => exact sound_step (d + 1) (fun d' h => by cases h; exact ih)

theorem numHead_ne {c : Char} (h : c = '-' ∨ isDigit c = true) :
    c ≠ 'n' ∧ c ≠ 't' ∧ c ≠ 'f' ∧ c ≠ '"' ∧ c ≠ '[' ∧ c ≠ '{' ∧ isWs c = false ∧ c ≠ ']' ∧
      c ≠ '}' := by
  rcases h with rfl | h
  · decide
  · refine ⟨?_, ?_, ?_, ?_, ?_, ?_, ?_, ?_, ?_⟩
    case refine_7 =>
      cases hw : isWs c with
      | false => rfl
      | true =>
        rw [isWs_iff] at hw
        rcases hw with rfl | rfl | rfl | rfl <;> (revert h; decide)
    all_goals (rintro rfl; revert h; decide)

theorem scalar_head [FloatText] {v j} (h : Scalar v j) :
    ∃ c t, v = c :: t ∧ isWs c = false ∧ c ≠ ']' ∧ c ≠ '}' := by
  cases h with
  | null => exact ⟨'n', ['u', 'l', 'l'], rfl, by decide⟩
  | true => exact ⟨'t', ['r', 'u', 'e'], rfl, by decide⟩
  | false => exact ⟨'f', ['a', 'l', 's', 'e'], rfl, by decide⟩
  | num h =>
    obtain ⟨c, t, rfl, hc⟩ := num_head h
    have := numHead_ne hc
    exact ⟨c, t, rfl, this.2.2.2.2.2.2⟩
  | str h => exact ⟨'"', _, rfl, by decide⟩

theorem val_head [FloatText] {d v j} (h : Val d v j) :
    ∃ c t, v = c :: t ∧ isWs c = false ∧ c ≠ ']' ∧ c ≠ '}' := by
  cases d with
  | zero => exact scalar_head h
  | succ d =>
    rcases h with h | h
    · exact scalar_head h
    · cases h with
      | arrEmpty _ => exact ⟨'[', _, rfl, by decide⟩
      | arr _ => exact ⟨'[', _, rfl, by decide⟩
      | objEmpty _ => exact ⟨'{', _, rfl, by decide⟩
      | obj _ => exact ⟨'{', _, rfl, by decide⟩

theorem scalar_complete [FloatText] {d : Nat} {v j} {r : List Char} (h : Scalar v j)
    (hr : Follow r) : parseValue d (v ++ r) = some (j, r) := by
  obtain ⟨c, t, e, hc, _⟩ := scalar_head h
  rw [parseValue_unfold]
  subst e
  rw [List.cons_append, skipWs_cons hc]
  simp only
  generalize hv : c :: t = v at h
  cases h with
  | null => cases hv; simp [ident]
  | true => cases hv; simp [ident]
  | false => cases hv; simp [ident]
  | str h =>
    cases hv
    have := parseStr_complete h r
    simp [this]
  | num h =>
    subst hv
    obtain ⟨_, _, e, hc⟩ := num_head h
    cases e
    obtain ⟨h1, h2, h3, h4, h5, h6, _⟩ := numHead_ne hc
    simp only [h1, h2, h3, h4, h5, h6, if_false, hc, if_true]
    exact parseNum_complete h hr.numEnd

theorem complete_step [FloatText] (d : Nat)
    (ih : ∀ d', d = d' + 1 → Complete (parseValue d') (Val d')) :
    Complete (parseValue d) (Val d) := by
  refine ⟨?_, val_head⟩
  intro w v j r hw hv hr
  have hsk : parseValue d (w ++ v ++ r) = parseValue d (v ++ r) := by
    rw [parseValue_unfold, parseValue_unfold, List.append_assoc, skipWs_append hw]
  rw [hsk]
  cases d with
  | zero => exact scalar_complete hv hr
  | succ d =>
    rcases hv with hv | hv
    · exact scalar_complete hv hr
    · have C := ih d rfl
      rw [parseValue_unfold]
      cases hv with
      | arrEmpty h =>
        rw [List.cons_append, List.cons_append, skipWs_cons (by decide)]
        simp only [List.append_assoc, List.cons_append, List.nil_append, elems_close h]
        simp
      | arr h =>
        rw [List.cons_append, List.cons_append, skipWs_cons (by decide)]
        simp only [List.append_assoc, List.cons_append, List.nil_append]
        rw [elems_complete C h (by simp; omega)]
        simp
      | objEmpty h =>
        rw [List.cons_append, List.cons_append, skipWs_cons (by decide)]
        simp only [List.append_assoc, List.cons_append, List.nil_append, mems_close h]
        simp
      | obj h =>
        rw [List.cons_append, List.cons_append, skipWs_cons (by decide)]
        simp only [List.append_assoc, List.cons_append, List.nil_append]
        rw [mems_complete C h (by simp; omega)]
        simp

theorem parseValue_complete [FloatText] (d : Nat) : Complete (parseValue d) (Val d) := by
  induction d with
  | zero => exact complete_step 0 (fun d' h => by omega)
  | succ d ih => exact complete_step (d + 1) (fun d' h => by cases h; exact ih)

/-- The parser accepts exactly the JSON texts whose arrays and objects nest at most 127 deep. -/
theorem parse_iff [FloatText] {cs : List Char} {j : Json} :
    parse cs = some j ↔ JsonText 127 cs j := by
  constructor
  · intro h
    unfold parse at h
    split at h
    · rename_i j' r h1
      split at h
      · rename_i hr
        cases h
        obtain ⟨w, v, hw, e, hv⟩ := (parseValue_sound 127).sound h1
        exact ⟨w, v, r, hw, hv, ws_of_skipWs hr, e⟩
      · cases h
    · cases h
  · rintro ⟨w, v, w', hw, hv, hw', rfl⟩
    unfold parse
    have hf : Follow w' := by
      have := follow_ws hw' (r := []) (by intro c t e; cases e)
      simpa using this
    rw [(parseValue_complete 127).complete hw hv hf]
    simp [skipWs_of_ws hw']

end Text
end Bsp
