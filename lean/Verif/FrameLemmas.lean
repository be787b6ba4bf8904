/-
Lemmas about the reading code on a flat source.
-/
import Verif.FrameSpec
import Verif.JsonPrint

namespace Bsp
open Spec (sep crlf Header lines blank Numeral GoodLines Declares ValidUtf8 BadLine)

/-! ### UTF-8 -/

theorem toByteArray_data (l : Bytes) : l.toByteArray.data.toList = l := by
  rw [List.data_toByteArray, List.toList_toArray]

theorem utf8_nil : utf8 [] = [] := rfl

theorem utf8_cons (c : Char) (cs : List Char) : utf8 (c :: cs) = String.utf8EncodeChar c ++ utf8 cs := by
  simp [utf8]

theorem utf8_append (a b : List Char) : utf8 (a ++ b) = utf8 a ++ utf8 b := by
  simp [utf8]

theorem utf8_toByteArray (cs : List Char) : (utf8 cs).toByteArray = cs.utf8Encode := rfl

theorem fromUtf8_iff {b : Bytes} {cs : List Char} : fromUtf8 b = some cs ↔ b = utf8 cs := by
  constructor
  · intro h
    simp only [fromUtf8, Option.map_eq_some_iff] at h
    obtain ⟨a, h1, rfl⟩ := h
    have := ByteArray.utf8Encode_get_utf8Decode? (b := b.toByteArray) (h := by simp [h1])
    simp only [h1, Option.get_some] at this
    have h2 := congrArg (fun x => x.data.toList) this
    simp only [toByteArray_data] at h2
    rw [← h2, ← utf8_toByteArray, toByteArray_data]
  · rintro rfl
    simp only [fromUtf8, utf8_toByteArray, List.utf8Decode?_utf8Encode, Option.map_some]

theorem fromUtf8_none {b : Bytes} : fromUtf8 b = none ↔ ¬ ValidUtf8 b := by
  constructor
  · rintro h ⟨cs, hc⟩
    rw [fromUtf8_iff.2 hc] at h; cases h
  · intro h
    cases hf : fromUtf8 b with
    | none => rfl
    | some cs => exact absurd ⟨cs, fromUtf8_iff.1 hf⟩ h

theorem utf8_inj {a b : List Char} (h : utf8 a = utf8 b) : a = b := by
  have h1 := fromUtf8_iff.2 (rfl : utf8 a = utf8 a)
  have h2 := fromUtf8_iff.2 h
  rw [h1] at h2
  simpa using h2

theorem ofNat_ne_ten {n : Nat} (h1 : n < 256) (h2 : n ≠ 10) : UInt8.ofNat n ≠ 10 := by
  intro h
  have := congrArg UInt8.toNat h
  simp only [UInt8.toNat_ofNat'] at this
  have e : UInt8.toNat 10 = 10 := rfl
  rw [e] at this
  omega

theorem ten_mem_char {c : Char} : (10 : UInt8) ∈ String.utf8EncodeChar c ↔ c = '\n' := by
  constructor
  · intro h
    unfold String.utf8EncodeChar at h
    simp only at h
    split at h
    · rename_i hv
      simp only [List.mem_singleton] at h
      by_cases he : c.val.toNat = 10
      · have : c.toNat = 10 := he
        rw [Text.char_of_toNat this]
      · exact absurd h.symm (ofNat_ne_ten (by omega) he)
    · rename_i hv
      exfalso
      split at h
      · simp only [List.mem_cons, List.not_mem_nil, or_false] at h
        rcases h with h | h <;> exact absurd h.symm (ofNat_ne_ten (by omega) (by omega))
      · split at h
        · simp only [List.mem_cons, List.not_mem_nil, or_false] at h
          rcases h with h | h | h <;> exact absurd h.symm (ofNat_ne_ten (by omega) (by omega))
        · simp only [List.mem_cons, List.not_mem_nil, or_false] at h
          rcases h with h | h | h | h <;> exact absurd h.symm (ofNat_ne_ten (by omega) (by omega))
  · rintro rfl; decide

theorem ten_mem {cs : List Char} : (10 : UInt8) ∈ utf8 cs ↔ '\n' ∈ cs := by
  induction cs with
  | nil => simp [utf8]
  | cons c cs ih =>
    rw [utf8_cons, List.mem_append, ten_mem_char, ih, List.mem_cons]
    exact or_congr ⟨Eq.symm, Eq.symm⟩ Iff.rfl

theorem utf8_crlf : utf8 crlf = [13, 10] := by decide

/-! ### Lines -/

namespace Frame

theorem splitLine_none {s : Bytes} : splitLine s = none ↔ (10 : UInt8) ∉ s := by
  induction s with
  | nil => simp [splitLine]
  | cons b s ih =>
    simp only [splitLine]
    split
    · rename_i h; simp [h]
    · rename_i h
      simp only [Option.map_eq_none_iff, ih, List.mem_cons, not_or]
      exact ⟨fun x => ⟨fun e => h e.symm, x⟩, fun x => x.2⟩

theorem splitLine_line {a : Bytes} (h : (10 : UInt8) ∉ a) (r : Bytes) :
    splitLine (a ++ 10 :: r) = some (a ++ [10], r) := by
  rw [splitLine_none_append (splitLine_none.2 h)]
  simp [splitLine]

theorem splitLine_some {s l r : Bytes} (h : splitLine s = some (l, r)) :
    s = l ++ r ∧ ∃ a, l = a ++ [10] ∧ (10 : UInt8) ∉ a := by
  refine ⟨(splitLine_eq h).1, ?_⟩
  induction s generalizing l r with
  | nil => simp [splitLine] at h
  | cons b s ih =>
    simp only [splitLine] at h
    split at h
    · rename_i hb; cases h; exact ⟨[], by simp [hb], by simp⟩
    · rename_i hb
      simp only [Option.map_eq_some_iff, Prod.mk.injEq] at h
      obtain ⟨⟨l', r'⟩, h1, rfl, rfl⟩ := h
      obtain ⟨a, rfl, ha⟩ := ih h1
      refine ⟨b :: a, rfl, ?_⟩
      simp only [List.mem_cons, not_or]
      exact ⟨fun e => hb e.symm, ha⟩

theorem stripCrlf_iff {cs b : List Char} : stripCrlf cs = some b ↔ cs = b ++ crlf := by
  unfold stripCrlf
  constructor
  · intro h
    split at h
    · rename_i x y r e
      split at h
      · rename_i hc
        obtain ⟨rfl, rfl⟩ := hc
        cases h
        have := congrArg List.reverse e
        simpa [crlf] using this
      · cases h
    · cases h
  · rintro rfl
    simp [crlf]

theorem stripCrlf_none {cs : List Char} : stripCrlf cs = none ↔ ¬ crlf <:+ cs := by
  constructor
  · rintro h ⟨b, rfl⟩
    rw [stripCrlf_iff.2 rfl] at h; cases h
  · intro h
    cases hs : stripCrlf cs with
    | none => rfl
    | some b => exact absurd ⟨b, (stripCrlf_iff.1 hs).symm⟩ h

theorem infix_cons {c : Char} {r : List Char} :
    sep <:+: c :: r ↔ (c = ':' ∧ r.head? = some ' ') ∨ sep <:+: r := by
  rw [List.infix_cons_iff]
  constructor
  · rintro (⟨t, h⟩ | h)
    · left
      simp only [sep, List.cons_append, List.nil_append, List.cons.injEq] at h
      obtain ⟨rfl, rfl⟩ := h
      simp
    · exact .inr h
  · rintro (⟨rfl, h⟩ | h)
    · left
      cases r with
      | nil => simp at h
      | cons d r => simp at h; subst h; exact ⟨r, rfl⟩
    · exact .inr h

theorem splitSep_none {cs : List Char} : splitSep cs = none ↔ ¬ sep <:+: cs := by
  induction cs with
  | nil => simp [splitSep, sep]
  | cons c r ih =>
    rw [infix_cons]
    simp only [splitSep]
    split
    · rename_i h; simp [h]
    · rename_i h; simp only [Option.map_eq_none_iff, ih, not_or]; exact ⟨fun x => ⟨h, x⟩, (·.2)⟩

theorem splitSep_some {cs n v : List Char} :
    splitSep cs = some (n, v) ↔ cs = n ++ sep ++ v ∧ ¬ sep <:+: n := by
  induction cs generalizing n v with
  | nil => simp [splitSep, sep]
  | cons c r ih =>
    simp only [splitSep]
    split
    · rename_i h
      obtain ⟨rfl, h⟩ := h
      cases r with
      | nil => simp at h
      | cons d r =>
        simp at h; subst h
        simp only [List.tail_cons, Option.some.injEq, Prod.mk.injEq]
        constructor
        · rintro ⟨rfl, rfl⟩
          exact ⟨rfl, by simp [sep]⟩
        · rintro ⟨h1, h2⟩
          cases n with
          | nil => simp [sep] at h1; exact ⟨rfl, h1⟩
          | cons x n =>
            exfalso
            simp only [List.cons_append, List.cons.injEq] at h1
            obtain ⟨rfl, h1⟩ := h1
            apply h2
            rw [infix_cons]; left
            cases n with
            | nil => simp [sep] at h1
            | cons y n => simp only [List.cons_append, List.cons.injEq] at h1; simp [← h1.1]
    · rename_i h
      simp only [Option.map_eq_some_iff, Prod.mk.injEq]
      constructor
      · rintro ⟨⟨n', v'⟩, h1, rfl, rfl⟩
        obtain ⟨rfl, h2⟩ := ih.1 h1
        refine ⟨by simp, ?_⟩
        rw [infix_cons]
        rintro (⟨rfl, h3⟩ | h3)
        · apply h
          refine ⟨rfl, ?_⟩
          cases n' with
          | nil => simp at h3
          | cons y n => simpa using h3
        · exact h2 h3
      · rintro ⟨h1, h2⟩
        cases n with
        | nil =>
          simp [sep] at h1
          exact absurd ⟨h1.1, by simp [h1.2]⟩ h
        | cons x n =>
          simp only [List.cons_append, List.cons.injEq] at h1
          obtain ⟨rfl, rfl⟩ := h1
          refine ⟨(n, v), ih.2 ⟨rfl, ?_⟩, rfl, rfl⟩
          rw [infix_cons] at h2
          exact fun x => h2 (.inr x)

/-! ### Numerals -/

theorem le_ofDigitChars (ds : List Char) (acc : Nat) : acc ≤ Nat.ofDigitChars 10 ds acc := by
  induction ds generalizing acc with
  | nil => simp
  | cons c ds ih =>
    rw [Nat.ofDigitChars_cons]
    have := ih (10 * acc + (c.toNat - '0'.toNat))
    omega

theorem digitsVal_iff {ds : List Char} : ∀ {acc n : Nat}, acc < 2 ^ 64 →
    (digitsVal ds acc = some n ↔
      (∀ c ∈ ds, '0' ≤ c ∧ c ≤ '9') ∧ n = Nat.ofDigitChars 10 ds acc ∧ n < 2 ^ 64) := by
  induction ds with
  | nil =>
    intro acc n h
    simp only [digitsVal, Option.some.injEq, List.not_mem_nil, Nat.ofDigitChars_nil]
    constructor
    · rintro rfl; exact ⟨by simp, rfl, h⟩
    · rintro ⟨_, rfl, _⟩; rfl
  | cons c ds ih =>
    intro acc n h
    have e48 : '0'.toNat = 48 := rfl
    have e : acc * 10 + (c.toNat - 48) = 10 * acc + (c.toNat - '0'.toNat) := by rw [e48]; omega
    simp only [digitsVal, Text.isDigit_iff, List.mem_cons, forall_eq_or_imp, Nat.ofDigitChars_cons]
    split
    · rename_i hd
      split
      · rename_i hlt
        rw [ih hlt, e]
        simp [hd]
      · rename_i hge
        simp only [reduceCtorEq, false_iff, not_and]
        rintro - rfl
        have := le_ofDigitChars ds (10 * acc + (c.toNat - '0'.toNat))
        omega
    · rename_i hd
      simp only [reduceCtorEq, false_iff, not_and]
      rintro ⟨h1, _⟩; exact absurd h1 hd

theorem parseUsize_iff {cs : List Char} {n : Nat} : parseUsize cs = some n ↔ Numeral cs n := by
  unfold parseUsize
  constructor
  · intro h
    split at h
    · cases h
    · rename_i c r
      split at h
      · rename_i hc; subst hc
        split at h
        · cases h
        · rename_i hr
          obtain ⟨h1, h2, h3⟩ := (digitsVal_iff (by decide)).1 h
          exact ⟨['+'], r, rfl, .inr rfl, hr, h1, h2, h3⟩
      · obtain ⟨h1, h2, h3⟩ := (digitsVal_iff (by decide)).1 h
        exact ⟨[], c :: r, rfl, .inl rfl, by simp, h1, h2, h3⟩
  · rintro ⟨sg, ds, rfl, hs, hne, h1, h2, h3⟩
    have key := (digitsVal_iff (acc := 0) (by decide)).2 ⟨h1, h2, h3⟩
    rcases hs with rfl | rfl
    · cases ds with
      | nil => exact absurd rfl hne
      | cons c ds =>
        have := (Text.digit_ne (h1 c (by simp))).2.1
        simp [this, key]
    · simp [hne, key]

theorem parseUsize_none {cs : List Char} : parseUsize cs = none ↔ ¬ ∃ n, Numeral cs n := by
  constructor
  · rintro h ⟨n, hn⟩; rw [parseUsize_iff.2 hn] at h; cases h
  · intro h
    cases hp : parseUsize cs with
    | none => rfl
    | some n => exact absurd ⟨n, parseUsize_iff.1 hp⟩ h

theorem contentLength_eq : contentLength = Spec.contentLength := by decide

/-! ### The header loop -/

/-- One line of the loop, without the recursion. -/
theorem headers_line (size : Option Nat) {a : Bytes} (ha : (10 : UInt8) ∉ a) (s : Bytes) (br : Bool) :
    headers size (⟨a ++ 10 :: s, br⟩ : Flat) =
      match fromUtf8 (a ++ [10]) with
      | none => .invalidData
      | some line =>
        match stripCrlf line with
        | none => .invalidData
        | some [] =>
          match size with
          | none => .invalidData
          | some n => .item n ⟨s, br⟩
        | some (c :: b) =>
          match splitSep (c :: b) with
          | none => .invalidData
          | some (name, value) =>
            if name = contentLength then
              match parseUsize value with
              | none => .invalidData
              | some n => headers (some n) ⟨s, br⟩
            else headers size ⟨s, br⟩ := by
  have h : Source.readUntil (⟨a ++ 10 :: s, br⟩ : Flat) = some (a ++ [10], ⟨s, br⟩) := by
    simp only [Source.readUntil, Flat.readUntil, splitLine_line ha]
  conv => lhs; unfold headers
  split
  · rename_i h1; rw [h] at h1; cases h1
  · rename_i l s' h1
    rw [h] at h1; cases h1
    rw [dif_neg (by simp)]
    rfl

/-- The end of the input inside the header block. -/
theorem headers_end (size : Option Nat) {t : Bytes} (ht : (10 : UInt8) ∉ t) (br : Bool) :
    headers size (⟨t, br⟩ : Flat) =
      if br then .ioError else if t = [] then .eof else .invalidData := by
  have h : Source.readUntil (⟨t, br⟩ : Flat) = if br then none else some (t, ⟨[], false⟩) := by
    simp only [Source.readUntil, Flat.readUntil, splitLine_none.2 ht]
  unfold headers
  cases br with
  | true =>
    simp only [if_true] at h ⊢
    split
    · rfl
    · rename_i h1; rw [h] at h1; cases h1
  | false =>
    simp only [Bool.false_eq_true, if_false] at h ⊢
    split
    · rename_i h1; rw [h] at h1; cases h1
    · rename_i l s' h1
      rw [h] at h1; cases h1
      split
      · rfl
      · split
        · rfl
        · rename_i line hl
          have : stripCrlf line = none := by
            rw [stripCrlf_none]
            rintro ⟨b, rfl⟩
            apply ht
            rw [fromUtf8_iff.1 hl, ten_mem]
            simp [crlf]
          simp [this]

theorem header_bytes {h : Header} (hok : h.Ok) :
    h.bytes = utf8 (h.name ++ sep ++ h.value ++ ['\r']) ++ [10] ∧
      (10 : UInt8) ∉ utf8 (h.name ++ sep ++ h.value ++ ['\r']) := by
  constructor
  · simp only [Header.bytes, crlf]
    rw [show (h.name ++ sep ++ h.value ++ ['\r', '\n']) =
      (h.name ++ sep ++ h.value ++ ['\r']) ++ ['\n'] by simp, utf8_append]
    rfl
  · rw [ten_mem]
    simp [sep, hok.1, hok.2.1]

/-- A well-formed header line. -/
theorem headers_header (size : Option Nat) {h : Header} (hok : h.Ok) (s : Bytes) (br : Bool) :
    headers size (⟨h.bytes ++ s, br⟩ : Flat) =
      if h.name = Spec.contentLength then
        match parseUsize h.value with
        | none => .invalidData
        | some n => headers (some n) ⟨s, br⟩
      else headers size ⟨s, br⟩ := by
  obtain ⟨hb, hn⟩ := header_bytes hok
  have e : h.bytes ++ s = utf8 (h.name ++ sep ++ h.value ++ ['\r']) ++ 10 :: s := by
    rw [hb]; simp
  rw [e, headers_line size hn, ← hb]
  have h1 : fromUtf8 h.bytes = some ((h.name ++ sep ++ h.value) ++ crlf) := fromUtf8_iff.2 rfl
  have h2 : splitSep (h.name ++ sep ++ h.value) = some (h.name, h.value) :=
    splitSep_some.2 ⟨rfl, hok.2.2⟩
  simp only [h1, stripCrlf_iff.2 rfl]
  split
  · rename_i h3; cases h3
  · rename_i h3; simp [sep] at h3
  · rename_i c b h3
    simp only [Option.some.injEq] at h3
    rw [h3] at h2
    simp only [h2, contentLength_eq]

theorem headers_blank (size : Option Nat) (s : Bytes) (br : Bool) :
    headers size (⟨blank ++ s, br⟩ : Flat) =
      match size with
      | none => .invalidData
      | some n => .item n ⟨s, br⟩ := by
  have := headers_line size (a := [13]) (by decide) s br
  have h1 : fromUtf8 ([13] ++ [10]) = some crlf := fromUtf8_iff.2 utf8_crlf.symm
  have h2 : stripCrlf crlf = some [] := by decide
  rw [h1] at this
  simp only [h2] at this
  exact this

theorem headers_bad (size : Option Nat) {l : Bytes} (hl : BadLine l) (s : Bytes) (br : Bool) :
    headers size (⟨l ++ s, br⟩ : Flat) = .invalidData := by
  obtain ⟨⟨a, rfl, ha⟩, hl⟩ := hl
  have e : a ++ [10] ++ s = a ++ 10 :: s := by simp
  rw [e, headers_line size ha]
  rcases hl with h | ⟨cs, h, h2⟩ | ⟨b, h, h2, h3⟩ | ⟨v, h, h2⟩
  · rw [fromUtf8_none.2 h]
  · rw [fromUtf8_iff.2 h]
    simp [stripCrlf_none.2 h2]
  · rw [fromUtf8_iff.2 h]
    simp only [stripCrlf_iff.2 rfl]
    cases b with
    | nil => exact absurd rfl h2
    | cons c b => simp [splitSep_none.2 h3]
  · rw [fromUtf8_iff.2 h]
    have h4 : splitSep (Spec.contentLength ++ sep ++ v) = some (Spec.contentLength, v) :=
      splitSep_some.2 ⟨rfl, by decide⟩
    simp only [stripCrlf_iff.2 rfl]
    have h5 : Spec.contentLength ++ sep ++ v = 'C' :: (Spec.contentLength.tail ++ sep ++ v) := rfl
    rw [h5] at h4 ⊢
    simp only [h4, contentLength_eq, if_true, parseUsize_none.2 h2]

/-- The length declared by lines, given an earlier one.
Proof helper: what the loop of bsp-server/src/message.rs:62-82 does to `size`. -/
def upd : Option Nat → List Header → Option Nat
  | size, [] => size
  | size, h :: hs => upd (if h.name = Spec.contentLength then parseUsize h.value else size) hs

theorem headers_lines (size : Option Nat) {hs : List Header} (hg : GoodLines hs) (s : Bytes)
    (br : Bool) :
    headers size (⟨lines hs ++ s, br⟩ : Flat) = headers (upd size hs) (⟨s, br⟩ : Flat) := by
  induction hs generalizing size with
  | nil => rfl
  | cons h hs ih =>
    have hh := hg h (by simp)
    have e : lines (h :: hs) ++ s = h.bytes ++ (lines hs ++ s) := by simp [lines]
    rw [e, headers_header size hh.1]
    have ih := fun sz => ih sz (fun x hx => hg x (List.mem_cons_of_mem _ hx))
    split
    · rename_i hn
      obtain ⟨k, hk⟩ := hh.2 hn
      simp only [parseUsize_iff.2 hk, ih, upd, hn, if_true]
    · rename_i hn
      simp only [ih, upd, hn, if_false]

theorem upd_append (size : Option Nat) (a b : List Header) :
    upd size (a ++ b) = upd (upd size a) b := by
  induction a generalizing size with
  | nil => rfl
  | cons h a ih => simp only [List.cons_append, upd, ih]

theorem upd_other {size : Option Nat} {b : List Header} (h : ∀ x ∈ b, x.name ≠ Spec.contentLength) :
    upd size b = size := by
  induction b with
  | nil => rfl
  | cons x b ih =>
    simp only [upd, h x (by simp), if_false]
    exact ih (fun y hy => h y (List.mem_cons_of_mem _ hy))

theorem upd_declares {hs : List Header} {n : Nat} (h : Declares hs n) (size : Option Nat) :
    upd size hs = some n := by
  obtain ⟨a, x, b, rfl, h1, h2, h3⟩ := h
  rw [upd_append]
  simp only [upd, h1, if_true, parseUsize_iff.2 h2]
  exact upd_other h3

theorem declares_cases (hs : List Header) (hg : GoodLines hs) :
    (∃ n, Declares hs n) ∨ ∀ x ∈ hs, x.name ≠ Spec.contentLength := by
  induction hs with
  | nil => right; simp
  | cons h hs ih =>
    rcases ih (fun x hx => hg x (List.mem_cons_of_mem _ hx)) with ⟨n, a, x, b, rfl, h1, h2, h3⟩ | h1
    · exact .inl ⟨n, h :: a, x, b, rfl, h1, h2, h3⟩
    · by_cases hn : h.name = Spec.contentLength
      · obtain ⟨k, hk⟩ := (hg h (by simp)).2 hn
        exact .inl ⟨k, [], h, hs, rfl, hn, hk, h1⟩
      · right
        intro x hx
        rcases List.mem_cons.1 hx with rfl | hx
        · exact hn
        · exact h1 x hx

theorem upd_none {hs : List Header} (hg : GoodLines hs) {n : Nat} :
    upd none hs = some n ↔ Declares hs n := by
  constructor
  · intro h
    rcases declares_cases hs hg with ⟨k, hk⟩ | hk
    · rw [upd_declares hk] at h; cases h; exact hk
    · rw [upd_other hk] at h; cases h
  · intro h; exact upd_declares h none

/-- Every stream starts with good header lines followed by a blank line, by the end of the stream, or
by a line that does not belong there. -/
theorem stream_cases : ∀ (s : Bytes), ∃ hs t, GoodLines hs ∧ s = lines hs ++ t ∧
    ((∃ r, t = blank ++ r) ∨ (10 : UInt8) ∉ t ∨ ∃ l r, t = l ++ r ∧ BadLine l) := by
  intro s
  induction hlen : s.length using Nat.strongRecOn generalizing s with
  | _ n ih =>
    subst hlen
    cases hsp : splitLine s with
    | none => exact ⟨[], s, by simp [GoodLines], rfl, .inr (.inl (splitLine_none.1 hsp))⟩
    | some p =>
      obtain ⟨l, r⟩ := p
      obtain ⟨hs, a, ha, ha2⟩ := splitLine_some hsp
      have bad : BadLine l → ∃ hs t, GoodLines hs ∧ s = lines hs ++ t ∧
          ((∃ r, t = blank ++ r) ∨ (10 : UInt8) ∉ t ∨ ∃ l r, t = l ++ r ∧ BadLine l) :=
        fun h => ⟨[], s, by simp [GoodLines], rfl, .inr (.inr ⟨l, r, hs, h⟩)⟩
      cases hu : fromUtf8 l with
      | none => exact bad ⟨⟨a, ha, ha2⟩, .inl (fromUtf8_none.1 hu)⟩
      | some cs =>
        have hcs := fromUtf8_iff.1 hu
        cases hst : stripCrlf cs with
        | none => exact bad ⟨⟨a, ha, ha2⟩, .inr (.inl ⟨cs, hcs, stripCrlf_none.1 hst⟩)⟩
        | some b =>
          have hb := stripCrlf_iff.1 hst
          cases b with
          | nil =>
            refine ⟨[], s, by simp [GoodLines], rfl, .inl ⟨r, ?_⟩⟩
            rw [hs, hcs, hb]; rfl
          | cons c b =>
            cases hss : splitSep (c :: b) with
            | none =>
              refine bad ⟨⟨a, ha, ha2⟩, .inr (.inr (.inl ⟨c :: b, ?_, by simp, splitSep_none.1 hss⟩))⟩
              rw [hcs, hb]
            | some nv =>
              obtain ⟨name, value⟩ := nv
              obtain ⟨e1, e2⟩ := splitSep_some.1 hss
              have hl : l = (Header.mk name value).bytes := by
                rw [hcs, hb, e1]; rfl
              have hok : (Header.mk name value).Ok := by
                have h10 : '\n' ∉ name ++ sep ++ value ++ ['\r'] := by
                  rw [← ten_mem]
                  have : l = utf8 (name ++ sep ++ value ++ ['\r']) ++ [10] := by
                    rw [hl]; simp only [Header.bytes, crlf]
                    rw [show (name ++ sep ++ value ++ ['\r', '\n']) =
                      (name ++ sep ++ value ++ ['\r']) ++ ['\n'] by simp, utf8_append]
                    rfl
                  rw [this] at ha
                  have := List.append_inj_left' ha rfl
                  rw [this]; exact ha2
                simp only [List.mem_append, not_or] at h10
                exact ⟨h10.1.1.1, h10.1.2, e2⟩
              by_cases hbad : name = Spec.contentLength ∧ ¬ ∃ n, Numeral value n
              · obtain ⟨rfl, h2⟩ := hbad
                exact bad ⟨⟨a, ha, ha2⟩, .inr (.inr (.inr ⟨value, hl, h2⟩))⟩
              · have hlpos : 0 < l.length := by rw [ha]; simp
                obtain ⟨hs', t, h1, h2, h3⟩ := ih r.length (by rw [hs]; simp; omega) r rfl
                refine ⟨⟨name, value⟩ :: hs', t, ?_, ?_, h3⟩
                · intro x hx
                  rcases List.mem_cons.1 hx with rfl | hx
                  · refine ⟨hok, fun hn => ?_⟩
                    apply Classical.byContradiction
                    intro hno
                    exact hbad ⟨hn, hno⟩
                  · exact h1 x hx
                · rw [hs, h2, hl]; simp [lines]

/-! ### Texts -/

theorem readText_eq (s : Flat) : readText s =
    match headers none s with
    | .item n s' =>
      if isizeMax < n then .panic
      else if n ≤ s'.bytes.length then
        match fromUtf8 (s'.bytes.take n) with
        | none => .invalidData
        | some cs => .item cs ⟨s'.bytes.drop n, s'.broken⟩
      else if s'.broken then .ioError else .unexpectedEof
    | .eof => .eof
    | .invalidData => .invalidData
    | .unexpectedEof => .unexpectedEof
    | .ioError => .ioError
    | .panic => .panic := by
  unfold readText
  cases h : headers none s with
  | item n s' =>
    simp only
    split
    · rfl
    · simp only [Source.readExact, Flat.readExact]
      by_cases hn : n ≤ s'.bytes.length
      · simp only [hn, if_true]
        rfl
      · simp only [hn, if_false]
        cases s'.broken <;> simp
  | eof => rfl
  | invalidData => rfl
  | unexpectedEof => rfl
  | ioError => rfl
  | panic => rfl

/-- What a read does after a complete header block. -/
theorem readText_block {hs : List Header} (hg : GoodLines hs) {n : Nat} (hd : Declares hs n)
    (s : Bytes) (br : Bool) :
    readText (⟨lines hs ++ blank ++ s, br⟩ : Flat) =
      if isizeMax < n then .panic
      else if n ≤ s.length then
        match fromUtf8 (s.take n) with
        | none => .invalidData
        | some cs => .item cs ⟨s.drop n, br⟩
      else if br then .ioError else .unexpectedEof := by
  rw [readText_eq, List.append_assoc, headers_lines none hg, headers_blank, upd_declares hd]

end Frame
end Bsp
