/-
C86: request ids are told apart. C87: error texts tell what they are about.
-/
import Verif.Debug
import Verif.JsonPrint
import Verif.FrameLemmas
import Verif.Props.Session

namespace Bsp

/-! ### Digits -/

theorem digitChar_inj : ∀ a < 16, ∀ b < 16, Nat.digitChar a = Nat.digitChar b → a = b := by decide

theorem hex_mem (n : Nat) : ∀ c ∈ Nat.toDigits 16 n, ∃ a < 16, c = Nat.digitChar a := by
  induction n using Nat.strongRecOn with
  | _ n ih =>
    intro c hc
    by_cases h : n < 16
    · rw [Nat.toDigits_of_lt_base h] at hc
      exact ⟨n, h, by simpa using hc⟩
    · rw [Nat.toDigits_of_base_le (by omega) (by omega)] at hc
      rcases List.mem_append.1 hc with hc | hc
      · exact ih _ (by omega) c hc
      · exact ⟨n % 16, by omega, by simpa using hc⟩

theorem hex_inj : ∀ {m n : Nat}, Nat.toDigits 16 m = Nat.toDigits 16 n → m = n := by
  intro m
  induction m using Nat.strongRecOn with
  | _ m ih =>
    intro n h
    by_cases hm : m < 16
    · rw [Nat.toDigits_of_lt_base hm] at h
      by_cases hn : n < 16
      · rw [Nat.toDigits_of_lt_base hn] at h
        exact digitChar_inj m hm n hn (by simpa using h)
      · rw [Nat.toDigits_of_base_le (by omega) (by omega)] at h
        have := congrArg List.length h
        have := Nat.length_toDigits_pos (b := 16) (n := n / 16)
        simp at *
    · rw [Nat.toDigits_of_base_le (n := m) (by omega) (by omega)] at h
      by_cases hn : n < 16
      · rw [Nat.toDigits_of_lt_base hn] at h
        have := congrArg List.length h
        have := Nat.length_toDigits_pos (b := 16) (n := m / 16)
        simp at *
      · rw [Nat.toDigits_of_base_le (n := n) (by omega) (by omega)] at h
        obtain ⟨h1, h2⟩ := List.append_inj' h rfl
        have h3 := ih (m / 16) (by omega) h1
        have h4 := digitChar_inj (m % 16) (by omega) (n % 16) (by omega) (by simpa using h2)
        omega

theorem close_not_hex (n : Nat) : '}' ∉ Nat.toDigits 16 n := by
  intro h
  obtain ⟨a, ha, h⟩ := hex_mem n _ h
  have : ∀ a < 16, '}' ≠ Nat.digitChar a := by decide
  exact this a ha h

/-- Two lists up to the first occurrence of something. -/
theorem upto_inj {α : Type} {x : α} : ∀ {a b s t : List α}, x ∉ a → x ∉ b → a ++ x :: s = b ++ x :: t → a = b ∧ s = t
  | [], [], _, _, _, _, h => ⟨rfl, by simpa using h⟩
  | [], y :: b, _, _, _, hb, h => by simp at h hb; exact absurd h.1 hb.1
  | y :: a, [], _, _, ha, _, h => by simp at h ha; exact absurd h.1.symm ha.1
  | y :: a, z :: b, s, t, ha, hb, h => by
    simp only [List.cons_append, List.cons.injEq] at h
    have := upto_inj (fun h => ha (List.mem_cons_of_mem _ h)) (fun h => hb (List.mem_cons_of_mem _ h)) h.2
    exact ⟨by rw [h.1, this.1], this.2⟩

/-! ### Strings -/

variable {odd : Char → Bool}

theorem esc_inj {c d : Char} {s t : List Char} (h : escDebug odd c ++ s = escDebug odd d ++ t) : c = d ∧ s = t := by
  unfold escDebug at h
  repeat' split at h
  all_goals try (simp at h <;> grind)
  simp only [List.cons_append, List.cons.injEq, true_and, List.append_assoc, List.nil_append] at h
  obtain ⟨h1, h2⟩ := upto_inj (close_not_hex _) (close_not_hex _) h
  exact ⟨Text.toNat_inj (hex_inj h1), h2⟩

theorem esc_head (c : Char) (s t : List Char) : escDebug odd c ++ s ≠ '"' :: t := by
  intro h
  unfold escDebug at h
  repeat' split at h
  all_goals simp at h <;> grind

theorem body_inj : ∀ {cs ds s t : List Char}, cs.flatMap (escDebug odd) ++ '"' :: s = ds.flatMap (escDebug odd) ++ '"' :: t →
    cs = ds ∧ s = t
  | [], [], _, _, h => ⟨rfl, by simpa using h⟩
  | [], d :: ds, _, _, h => by
    simp only [List.flatMap_nil, List.nil_append, List.flatMap_cons, List.append_assoc] at h
    exact absurd h.symm (esc_head _ _ _)
  | c :: cs, [], _, _, h => by
    simp only [List.flatMap_nil, List.nil_append, List.flatMap_cons, List.append_assoc] at h
    exact absurd h (esc_head _ _ _)
  | c :: cs, d :: ds, s, t, h => by
    simp only [List.flatMap_cons, List.append_assoc] at h
    obtain ⟨rfl, h2⟩ := esc_inj h
    obtain ⟨h3, h4⟩ := body_inj h2
    exact ⟨by rw [h3], h4⟩

theorem strDebug_inj {a b : String} {s t : List Char} (h : strDebug odd a ++ s = strDebug odd b ++ t) : a = b ∧ s = t := by
  simp only [strDebug, List.cons_append, List.cons.injEq, true_and, List.append_assoc, List.nil_append] at h
  obtain ⟨h1, h2⟩ := body_inj h
  exact ⟨String.toList_inj.1 h1, h2⟩

/-! ### Numbers -/

/-- A list that does not go on with a digit. -/
def Spec.NoDigit (s : List Char) : Prop := ∀ c r, s = c :: r → c.isDigit = false

theorem digits_inj : ∀ {a b s t : List Char}, (∀ c ∈ a, c.isDigit = true) → (∀ c ∈ b, c.isDigit = true) →
    Spec.NoDigit s → Spec.NoDigit t → a ++ s = b ++ t → a = b ∧ s = t
  | [], [], _, _, _, _, _, _, h => ⟨rfl, by simpa using h⟩
  | [], y :: b, s, _, _, hb, hs, _, h => by
    have := hs _ _ h
    rw [hb y (by simp)] at this; cases this
  | y :: a, [], _, t, ha, _, _, ht, h => by
    have := ht _ _ h.symm
    rw [ha y (by simp)] at this; cases this
  | y :: a, z :: b, s, t, ha, hb, hs, ht, h => by
    simp only [List.cons_append, List.cons.injEq] at h
    have := digits_inj (fun c h => ha c (List.mem_cons_of_mem _ h)) (fun c h => hb c (List.mem_cons_of_mem _ h)) hs ht h.2
    exact ⟨by rw [h.1, this.1], this.2⟩

theorem dec_digits (n : Nat) : ∀ c ∈ Nat.toDigits 10 n, c.isDigit = true :=
  fun _ hc => Nat.isDigit_of_mem_toDigits (by omega) (by omega) hc

theorem dec_inj {m n : Nat} (h : Nat.toDigits 10 m = Nat.toDigits 10 n) : m = n := by
  rw [← Nat.ofDigitChars_ten_toDigits (n := m), h, Nat.ofDigitChars_ten_toDigits]

theorem dec_head (n : Nat) (x : Char) (hx : x.isDigit = false) (s t : List Char) : Nat.toDigits 10 n ++ s ≠ x :: t := by
  intro h
  cases hd : Nat.toDigits 10 n with
  | nil => exact Nat.toDigits_ne_nil hd
  | cons c r =>
    rw [hd] at h
    simp only [List.cons_append, List.cons.injEq] at h
    have := dec_digits n c (by rw [hd]; simp)
    rw [h.1, hx] at this; cases this

theorem int_inj {i j : Int} {s t : List Char} (hs : Spec.NoDigit s) (ht : Spec.NoDigit t)
    (h : Text.printInt i ++ s = Text.printInt j ++ t) : i = j ∧ s = t := by
  unfold Text.printInt at h
  split at h <;> split at h
  · simp only [List.cons_append, List.cons.injEq, true_and] at h
    obtain ⟨h1, h2⟩ := digits_inj (dec_digits _) (dec_digits _) hs ht h
    have := dec_inj h1
    exact ⟨by omega, h2⟩
  · exact absurd h.symm (dec_head _ '-' (by decide) _ _)
  · exact absurd h (dec_head _ '-' (by decide) _ _)
  · obtain ⟨h1, h2⟩ := digits_inj (dec_digits _) (dec_digits _) hs ht h
    have := dec_inj h1
    exact ⟨by omega, h2⟩

theorem int_head (i : Int) (s t : List Char) : Text.printInt i ++ s ≠ '"' :: t := by
  unfold Text.printInt
  split
  · simp
  · exact dec_head _ _ (by decide) _ _

/-- The text of an id determines it, also when something follows. -/
theorem display_inj {a b : RequestId} {s t : List Char} (hs : Spec.NoDigit s) (ht : Spec.NoDigit t)
    (h : a.display odd ++ s = b.display odd ++ t) : a = b ∧ s = t := by
  cases a with
  | i32 i =>
    cases b with
    | i32 j =>
      obtain ⟨h1, h2⟩ := int_inj hs ht h
      exact ⟨by rw [Int32.toInt_inj.1 h1], h2⟩
    | str y => exact absurd h (int_head _ _ _)
  | str x =>
    cases b with
    | i32 j => exact absurd h.symm (int_head _ _ _)
    | str y =>
      obtain ⟨h1, h2⟩ := strDebug_inj h
      exact ⟨by rw [h1], h2⟩

/-! ### C86 -/

/-- C86: different ids have different texts. -/
theorem C86_display {a b : RequestId} : a.display odd = b.display odd ↔ a = b := by
  refine ⟨fun h => ?_, fun h => by rw [h]⟩
  have hn : Spec.NoDigit [] := fun c r h => by cases h
  exact (display_inj (odd := odd) (s := []) (t := []) hn hn (by simpa using h)).1

/-- C86: also if something follows that does not go on with a digit. -/
theorem C86_followed {a b : RequestId} {s t : List Char} (hs : Spec.NoDigit s) (ht : Spec.NoDigit t) :
    a.display odd ++ s = b.display odd ++ t ↔ a = b ∧ s = t :=
  ⟨display_inj hs ht, fun ⟨h1, h2⟩ => by rw [h1, h2]⟩

/-- C86: different ids are different on the wire, and each is read as itself. -/
theorem C86_wire [FloatText] {a b : RequestId} :
    (Text.print a.enc = Text.print b.enc ↔ a = b) ∧ RequestId.dec a.enc = some a := by
  have key : ∀ a : RequestId, RequestId.dec a.enc = some a := fun a => by
    rw [← RequestId.dec_canon]; exact RequestId.dec_enc a
  have parse : ∀ a : RequestId, Text.parse (Text.print a.enc) = some a.enc := by
    intro a
    apply Text.parse_print
    · cases a <;> simp [RequestId.enc, encI32, Spec.nest]
    · cases a with
      | i32 i =>
        have := i.toInt_lt
        have := i.le_toInt
        simp [RequestId.enc, encI32, Spec.Numbers]
        omega
      | str s => simp [RequestId.enc, Spec.Numbers]
  refine ⟨⟨fun h => ?_, fun h => by rw [h]⟩, key a⟩
  have h1 := parse a
  rw [h, parse b] at h1
  have h2 := key a
  rw [← Option.some.inj h1, key b] at h2
  exact (Option.some.inj h2).symm

/-- C86: the order of ids is total: of two ids exactly one is less, or they are equal; it is transitive; and numbers
come before texts. -/
theorem C86_order (a b c : RequestId) :
    ((a.less b = true ∧ b.less a = false ∧ a ≠ b) ∨ (a.less b = false ∧ b.less a = true ∧ a ≠ b) ∨
      (a.less b = false ∧ b.less a = false ∧ a = b)) ∧
    (a.less b = true → b.less c = true → a.less c = true) ∧
    (∀ i s, a = .i32 i → b = .str s → a.less b = true) := by
  refine ⟨?_, ?_, fun i s ha hb => by rw [ha, hb]; rfl⟩
  · cases a with
    | i32 i =>
      cases b with
      | i32 j =>
        simp only [RequestId.less, decide_eq_true_eq, decide_eq_false_iff_not, RequestId.i32.injEq,
          Int32.lt_iff_toInt_lt, ← Int32.toInt_inj, ne_eq]
        omega
      | str y => simp [RequestId.less]
    | str x =>
      cases b with
      | i32 j => simp [RequestId.less]
      | str y =>
        simp only [RequestId.less, decide_eq_true_eq, decide_eq_false_iff_not, RequestId.str.injEq, ne_eq]
        by_cases h : utf8 x.toList = utf8 y.toList
        · have : x = y := String.toList_inj.1 (utf8_inj h)
          subst this
          simp [List.lt_irrefl]
        · have hne : x ≠ y := fun e => h (by rw [e])
          by_cases h1 : utf8 x.toList < utf8 y.toList
          · exact .inl ⟨h1, List.lt_asymm h1, hne⟩
          · by_cases h2 : utf8 y.toList < utf8 x.toList
            · exact .inr (.inl ⟨h1, h2, hne⟩)
            · exact absurd (List.le_antisymm (List.not_lt.1 h2) (List.not_lt.1 h1)) h
  · cases a <;> cases b <;> cases c <;> simp only [RequestId.less, decide_eq_true_eq, Bool.false_eq_true, false_implies,
      implies_true, Int32.lt_iff_toInt_lt]
    · omega
    · exact fun h1 h2 => List.lt_trans h1 h2

/-! ### C87 -/

section
open Conn
variable [Ext] [Dbg]

/-- What a response says: that there is a result, or what the error is, or nothing. -/
inductive Spec.Verdict where
  | result
  | error (code : Int32) (message : String) (more : Bool)
  | nothing

/-- What this response says. -/
def Spec.verdict (r : Response) : Spec.Verdict :=
  if r.result.isSome then .result
  else match r.error with
    | some e => .error e.code e.message e.data.isSome
    | none => .nothing

/-- What a message is about: the id of a request, the id of a response and what it says, the method of a
notification. -/
inductive Spec.Subject where
  | request (id : RequestId)
  | response (id : RequestId) (says : Spec.Verdict)
  | notification (method : String)

/-- The subject of a message. -/
def Spec.subject : Message → Spec.Subject
  | .request r => .request r.id
  | .response r => .response r.id (Spec.verdict r)
  | .notification n => .notification n.method

omit [Ext] [Dbg] in
theorem noDigit_cons {c : Char} {s : List Char} (h : c.isDigit = false) : Spec.NoDigit (c :: s) := by
  intro d r e
  cases e
  simpa using h

theorem reqText_inj {a b : Request} {s t : List Char} (h : Dbg.reqText a ++ s = Dbg.reqText b ++ t) : a.id = b.id := by
  simp only [Dbg.reqText, List.append_assoc] at h
  exact (display_inj (noDigit_cons (by decide)) (noDigit_cons (by decide)) h).1

omit [Ext] [Dbg] in
theorem debug_i32 {odd : Char → Bool} {i : Int32} :
    (RequestId.i32 i).debug odd = "RequestId(I32(".toList ++ Text.printInt i.toInt ++ "))".toList := rfl

omit [Ext] [Dbg] in
theorem debug_str {odd : Char → Bool} {x : String} :
    (RequestId.str x).debug odd = "RequestId(String(".toList ++ strDebug odd x ++ "))".toList := rfl

omit [Ext] [Dbg] in
theorem debug_inj {odd : Char → Bool} {a b : RequestId} {s t : List Char}
    (h : a.debug odd ++ s = b.debug odd ++ t) : a = b ∧ s = t := by
  cases a with
  | i32 i =>
    cases b with
    | i32 j =>
      simp only [debug_i32, List.append_assoc, List.append_cancel_left_eq] at h
      obtain ⟨h1, h2⟩ := int_inj (noDigit_cons (by decide)) (noDigit_cons (by decide)) h
      exact ⟨by rw [Int32.toInt_inj.1 h1], by simpa using h2⟩
    | str y => simp [debug_i32, debug_str] at h
  | str x =>
    cases b with
    | i32 j => simp [debug_i32, debug_str] at h
    | str y =>
      simp only [debug_str, List.append_assoc, List.append_cancel_left_eq] at h
      obtain ⟨h1, h2⟩ := strDebug_inj h
      exact ⟨by rw [h1], by simpa using h2⟩

theorem note_showMessage {p} : Dbg.noteText (.showMessage p) =
    "ShowMessage(".toList ++ Dbg.noteParams (.showMessage p) ++ ")".toList := rfl
theorem note_logMessage {p} : Dbg.noteText (.logMessage p) =
    "LogMessage(".toList ++ Dbg.noteParams (.logMessage p) ++ ")".toList := rfl
theorem note_publishDiagnostics {p} : Dbg.noteText (.publishDiagnostics p) =
    "PublishDiagnostics(".toList ++ Dbg.noteParams (.publishDiagnostics p) ++ ")".toList := rfl
theorem note_taskStart {p} : Dbg.noteText (.taskStart p) =
    "TaskStart(".toList ++ Dbg.noteParams (.taskStart p) ++ ")".toList := rfl
theorem note_taskFinish {p} : Dbg.noteText (.taskFinish p) =
    "TaskFinish(".toList ++ Dbg.noteParams (.taskFinish p) ++ ")".toList := rfl
theorem note_taskProgress {p} : Dbg.noteText (.taskProgress p) =
    "TaskProgress(".toList ++ Dbg.noteParams (.taskProgress p) ++ ")".toList := rfl
theorem note_buildTargetDidChange {p} : Dbg.noteText (.buildTargetDidChange p) =
    "BuildTargetDidChange(".toList ++ Dbg.noteParams (.buildTargetDidChange p) ++ ")".toList := rfl
theorem note_exit : Dbg.noteText .exit = "Exit".toList := rfl
theorem note_initialized : Dbg.noteText .initialized = "Initialized".toList := rfl
theorem note_custom {m v} : Dbg.noteText (.custom m v) =
    "Custom(".toList ++ strDebug Dbg.odd m ++ ", ".toList ++ Dbg.value v ++ ")".toList := rfl

theorem noteText_inj {a b : Notification} {s t : List Char}
    (h : Dbg.noteText a ++ ')' :: s = Dbg.noteText b ++ ')' :: t) : a.method = b.method := by
  cases a <;> cases b <;> try (simp [note_showMessage, note_logMessage, note_publishDiagnostics, note_taskStart, note_taskFinish, note_taskProgress, note_buildTargetDidChange, note_exit, note_initialized, note_custom] at h; done)
  all_goals try rfl
  simp only [note_custom, List.append_assoc, List.append_cancel_left_eq] at h
  exact (strDebug_inj h).1

theorem msg_request {r} : Dbg.msg (.request r) = String.ofList ("Request(".toList ++ Dbg.reqText r ++ ")".toList) := rfl
theorem msg_response {r} :
    Dbg.msg (.response r) = String.ofList ("Response(".toList ++ Dbg.respText r ++ ")".toList) := rfl
theorem msg_notification {n} :
    Dbg.msg (.notification n) = String.ofList ("Notification(".toList ++ Dbg.noteText n ++ ")".toList) := rfl

theorem respText_eq {r} : Dbg.respText r = "Response { id: ".toList ++ r.id.debug Dbg.odd ++ (", result: ".toList ++
    Dbg.optText Dbg.value r.result ++ ", error: ".toList ++ Dbg.optText Dbg.errText r.error ++ " }".toList) := by
  delta Dbg.respText
  simp only [List.append_assoc]

theorem errText_eq {e} : Dbg.errText e = "ResponseError { code: ".toList ++ (Text.printInt e.code.toInt ++
    (", message: ".toList ++ (strDebug Dbg.odd e.message ++ (", data: ".toList ++ (Dbg.optText Dbg.value e.data ++
      " }".toList))))) := by
  delta Dbg.errText
  simp only [List.append_assoc]

/-- What follows the id in the text of a response tells what it says. -/
theorem verdict_inj {a b : Response} {s t : List Char}
    (h : ", result: ".toList ++ Dbg.optText Dbg.value a.result ++ ", error: ".toList ++
        Dbg.optText Dbg.errText a.error ++ " }".toList ++ s =
      ", result: ".toList ++ Dbg.optText Dbg.value b.result ++ ", error: ".toList ++
        Dbg.optText Dbg.errText b.error ++ " }".toList ++ t) : Spec.verdict a = Spec.verdict b := by
  obtain ⟨i, ra, ea⟩ := a
  obtain ⟨j, rb, eb⟩ := b
  have hn : ∀ {α : Type} (f : α → List Char), Dbg.optText f none = "None".toList := fun _ => rfl
  have hs : ∀ {α : Type} (f : α → List Char) (x : α), Dbg.optText f (some x) = "Some(".toList ++ f x ++ ")".toList :=
    fun _ _ => rfl
  simp only [List.append_assoc, List.append_cancel_left_eq] at h
  cases ra <;> cases rb <;> simp only [hn, hs, List.append_assoc, List.append_cancel_left_eq] at h
  · cases ea <;> cases eb <;> simp only [hn, hs, List.append_assoc, List.append_cancel_left_eq] at h
    · rfl
    · simp at h
    · simp at h
    · rename_i e f
      simp only [errText_eq, List.append_assoc, List.append_cancel_left_eq] at h
      obtain ⟨h1, h2⟩ := int_inj (noDigit_cons (by decide)) (noDigit_cons (by decide)) h
      obtain ⟨h3, h4⟩ := strDebug_inj (List.append_cancel_left (as := ", message: ".toList) h2)
      simp only [List.append_cancel_left_eq] at h4
      have h5 : e.data.isSome = f.data.isSome := by
        cases hd : e.data <;> cases hf : f.data <;> simp [hd, hf, hn, hs] at h4 ⊢
      simp only [Spec.verdict, Option.isSome_none, Bool.false_eq_true, if_false, Int32.toInt_inj.1 h1, h3, h5]
  · simp at h
  · simp at h
  · rfl

/-- The text of a message tells its subject. -/
theorem msg_subject {a b : Message} (h : Dbg.msg a = Dbg.msg b) : Spec.subject a = Spec.subject b := by
  cases a <;> cases b <;> simp only [msg_request, msg_response, msg_notification] at h <;> replace h := String.ofList_injective h
  all_goals try (simp at h; done)
  · simp only [List.append_assoc, List.append_cancel_left_eq] at h
    simp only [Spec.subject, reqText_inj h]
  · simp only [List.append_assoc, respText_eq, List.append_cancel_left_eq] at h
    obtain ⟨h1, h2⟩ := debug_inj h
    simp only [Spec.subject, h1, verdict_inj (s := ")".toList) (t := ")".toList) (by simpa only [List.append_assoc] using h2)]
  · simp only [List.append_assoc, List.append_cancel_left_eq] at h
    simp only [Spec.subject, noteText_inj h]

/-- Where a call of the library gives up. -/
inductive Spec.Phase where
  /-- waiting for build/initialize -/
  | before
  /-- waiting for build/initialized -/
  | after
  /-- waiting for exit -/
  | shutdown

/-- What came instead of the message awaited. -/
inductive Spec.Came where
  | msg (m : Message)
  /-- the end of the input -/
  | closed
  /-- nothing in time -/
  | nothing

/-- The subject of the message that came, if any. -/
def Spec.Came.about : Spec.Came → Option Spec.Subject
  | .msg m => some (Spec.subject m)
  | _ => none

/-- Why a call of the library gives up. -/
structure Spec.Cause where
  phase : Spec.Phase
  came : Spec.Came

/-- What of the cause can be told from the text. -/
def Spec.Cause.about (c : Spec.Cause) : Spec.Phase × Option Spec.Subject := (c.phase, c.came.about)

/-- The cause for which a handshake gives up. -/
def Spec.Breaks (process : InitializeBuild → Option Value) (w : World) : Spec.Cause → Prop
  | ⟨.before, .msg m⟩ => ∃ (early : List Request) (rest : List Message),
      w.msgs = early.map .request ++ m :: rest ∧ (∀ r ∈ early, ∀ i q, r ≠ .initializeBuild i q) ∧
      early.length ≤ w.out.length ∧ ∀ r, m ≠ .request r
  | ⟨.before, .closed⟩ => ∃ (early : List Request) (t : Nat),
      w.msgs = early.map .request ∧ (∀ r ∈ early, ∀ i q, r ≠ .initializeBuild i q) ∧
      early.length ≤ w.out.length ∧ w.fin = .closedAt t
  | ⟨.after, .msg m⟩ => ∃ (early : List Request) (id : RequestId) (p : InitializeBuild) (rest : List Message),
      w.msgs = early.map .request ++ .request (.initializeBuild id p) :: m :: rest ∧
      (∀ r ∈ early, ∀ i q, r ≠ .initializeBuild i q) ∧ early.length < w.out.length ∧ process p ≠ none ∧
      m ≠ .notification .initialized
  | ⟨.after, .closed⟩ => ∃ (early : List Request) (id : RequestId) (p : InitializeBuild) (t : Nat),
      w.msgs = early.map .request ++ [.request (.initializeBuild id p)] ∧
      (∀ r ∈ early, ∀ i q, r ≠ .initializeBuild i q) ∧ early.length < w.out.length ∧ process p ≠ none ∧
      w.fin = .closedAt t
  | _ => False

/-- The cause for which a shutdown gives up. -/
def Spec.BreaksShutdown (w : World) : Spec.Cause → Prop
  | ⟨.shutdown, .msg m⟩ => ∃ start t rest, Spec.ackDone w = some start ∧ w.inp = (t, m) :: rest ∧ t ≤ start + 30000 ∧
      m ≠ .notification .exit
  | ⟨.shutdown, .closed⟩ => ∃ start t, Spec.ackDone w = some start ∧ w.inp = [] ∧ w.fin = .closedAt t ∧
      t ≤ start + 30000
  | ⟨.shutdown, .nothing⟩ => ∃ start, Spec.ackDone w = some start ∧
      (∀ t m rest, w.inp = (t, m) :: rest → start + 30000 < t) ∧
      (∀ t, w.inp = [] → w.fin = .closedAt t → start + 30000 < t)
  | _ => False

/-- The text for a cause. -/
def causeText : Spec.Cause → String
  | ⟨.before, .msg m⟩ => "expected initialize request, got " ++ Dbg.msg m
  | ⟨.before, _⟩ => "expected initialize request, got error: " ++ Dbg.recvError
  | ⟨.after, .msg m⟩ => "expected Message::Notification, got: " ++ Dbg.msg m
  | ⟨.after, _⟩ => "expected initialized notification, got error: " ++ Dbg.recvError
  | ⟨.shutdown, .msg m⟩ => "unexpected message during shutdown: " ++ Dbg.msg m
  | ⟨.shutdown, .closed⟩ => "unexpected error during shutdown: " ++ Dbg.disconnected
  | ⟨.shutdown, .nothing⟩ => "unexpected error during shutdown: " ++ Dbg.timeout

theorem break_text {process : InitializeBuild → Option Value} {w : World} {c : Spec.Cause}
    (h : Spec.Breaks process w c) : (handshake process w).1 = .err (causeText c) := by
  obtain ⟨ph, m⟩ := c
  cases ph with
  | shutdown => cases m <;> cases h
  | before =>
    cases m with
    | nothing => cases h
    | msg m =>
      obtain ⟨early, rest, hm, he, hl, hn⟩ := h
      obtain ⟨e, r, hi, rfl, hr⟩ := timed hm
      obtain ⟨now, h⟩ := start_early e hi (fun p hp => he p.2 (List.mem_map_of_mem hp)) (by simpa using hl)
      cases r with
      | nil => simp at hr
      | cons x r =>
        simp only [List.map_cons, List.cons.injEq] at hr
        obtain ⟨rfl, rfl⟩ := hr
        unfold handshake
        rw [h, start_other_text (t := x.1) (m := x.2) (rest := r) rfl hn]
        rfl
    | closed =>
      obtain ⟨early, t, hm, he, hl, hf⟩ := h
      rw [← List.append_nil (early.map _)] at hm
      obtain ⟨e, r, hi, rfl, hr⟩ := timed hm
      obtain ⟨now, h⟩ := start_early e hi (fun p hp => he p.2 (List.mem_map_of_mem hp)) (by simpa using hl)
      simp only [List.map_eq_nil_iff] at hr
      subst hr
      unfold handshake
      rw [h, start_end_text (w := { w with
        inp := [], out := w.out.drop e.length, now := now,
        sent := w.sent ++ (e.map (·.2)).map refusal }) (t := t) rfl hf]
      rfl
  | after =>
    have key : ∀ (early : List Request) (id : RequestId) (p : InitializeBuild) (rest : List Message),
        w.msgs = early.map .request ++ .request (.initializeBuild id p) :: rest →
        (∀ r ∈ early, ∀ i q, r ≠ .initializeBuild i q) → early.length < w.out.length → process p ≠ none →
        ∃ v w2, (∃ d ds, w2.out = d :: ds) ∧ w2.msgs = rest ∧ w2.fin = w.fin ∧
          ∀ o w3, initializeFinish id v w2 = (.err o, w3) → (handshake process w).1 = .err o := by
      intro early id p rest hm he hl hp
      obtain ⟨e, r, hi, rfl, hr⟩ := timed hm
      obtain ⟨now, h⟩ := start_early e hi (fun p hp => he p.2 (List.mem_map_of_mem hp)) (by simp at hl; omega)
      cases r with
      | nil => simp at hr
      | cons x r =>
        simp only [List.map_cons, List.cons.injEq] at hr
        obtain ⟨hx, rfl⟩ := hr
        cases hp' : process p with
        | none => exact absurd hp' hp
        | some v =>
          have h2 := start_init (w := { w with
            inp := x :: r, out := w.out.drop e.length, now := now,
            sent := w.sent ++ (e.map (·.2)).map refusal }) (t := x.1) (id := id) (p := p) (rest := r)
            (by rw [← hx])
          refine ⟨v, { w with
            inp := r, out := w.out.drop e.length, now := max now x.1,
            sent := w.sent ++ (e.map (·.2)).map refusal, calls := w.calls ++ [p] }, ?_, rfl, rfl, ?_⟩
          · cases hd : w.out.drop e.length with
            | nil => have := congrArg List.length hd; simp at this hl; omega
            | cons d ds => exact ⟨d, ds, rfl⟩
          · intro o w3 h3
            unfold handshake
            rw [h, h2]
            simp only [hp', h3]
    cases m with
    | nothing => cases h
    | msg m =>
      obtain ⟨early, id, p, rest, hm, he, hl, hp, hn⟩ := h
      obtain ⟨v, w2, ⟨d, ds, ho⟩, hm2, _, h⟩ := key early id p (m :: rest) hm he hl hp
      unfold World.msgs at hm2
      cases hi : w2.inp with
      | nil => rw [hi] at hm2; simp at hm2
      | cons x r =>
        rw [hi] at hm2
        simp only [List.map_cons, List.cons.injEq] at hm2
        obtain ⟨rfl, rfl⟩ := hm2
        refine h _ { w2 with
          inp := r, out := ds, now := max (w2.now + d) x.1, sent := w2.sent ++ [.response (.ok id v)] } ?_
        unfold initializeFinish
        simp only [send, ho, recv, hi]
        rfl
    | closed =>
      obtain ⟨early, id, p, t, hm, he, hl, hp, hf⟩ := h
      obtain ⟨v, w2, ⟨d, ds, ho⟩, hm2, hf2, h⟩ := key early id p [] hm he hl hp
      unfold World.msgs at hm2
      simp only [List.map_eq_nil_iff] at hm2
      refine h _ { w2 with
        out := ds, now := max (w2.now + d) t, sent := w2.sent ++ [.response (.ok id v)] } ?_
      unfold initializeFinish
      simp only [send, ho, recv, hm2, hf2, hf]
      rfl

theorem break_exists {process : InitializeBuild → Option Value} {w : World} {e : String}
    (h : (handshake process w).1 = .err e) : ∃ c, Spec.Breaks process w c := by
  obtain ⟨early, tail, hm, he, _, hl | ⟨hl, rfl⟩ | ⟨hl, id, q, rest, rfl⟩ | ⟨hl, m, rest, rfl, hn⟩⟩ := hs_cases w
  · obtain ⟨w', h1, _⟩ := hs_room (process := process) hm he hl
    rw [h1] at h
    cases ho : w.outEnd <;> rw [ho] at h <;> cases h
  · rw [List.append_nil] at hm
    obtain ⟨o, w', h1, ⟨t, _, hf, _⟩ | ⟨_, rfl⟩, _⟩ := hs_end (process := process) hm he hl
    · exact ⟨⟨.before, .closed⟩, early, t, hm, he, hl, hf⟩
    · rw [h1] at h; cases h
  · obtain ⟨w', _, _, ⟨_, h1, _⟩ | ⟨v, _, _, h1, _⟩ | ⟨v, hv, hl', _, ⟨rfl, hr, _⟩ | ⟨m, r, rfl, _, hr⟩⟩⟩ :=
      hs_init (process := process) hm he hl
    · rw [h1] at h; cases h
    · rw [h1] at h; cases ho : w.outEnd <;> rw [ho] at h <;> cases h
    · rcases hr with ⟨t, _, hf, _⟩ | ⟨_, h1⟩
      · exact ⟨⟨.after, .closed⟩, early, id, q, t, hm, he, hl', by simp [hv], hf⟩
      · rw [h1] at h; cases h
    · rcases hr with ⟨_, h1⟩ | ⟨hn, _⟩
      · rw [h1] at h; cases h
      · exact ⟨⟨.after, .msg m⟩, early, id, q, r, hm, he, hl', by simp [hv], hn⟩
  · exact ⟨⟨.before, .msg m⟩, early, rest, hm, he, hl, hn⟩

theorem shutdown_text (id : RequestId) (w : World) (e : String) :
    (handleShutdown (.shutdown id) w).1 = .err e ↔ ∃ c, Spec.BreaksShutdown w c ∧ e = causeText c := by
  have key : ∀ (w1 : World) (start : Nat), w1.inp = w.inp → w1.fin = w.fin → w1.now = start →
      Spec.ackDone w = some start →
      ((awaitExit w1).1 = .err e ↔ ∃ c, Spec.BreaksShutdown w c ∧ e = causeText c) := by
    intro w1 start hi hf hs ha
    subst hs
    unfold awaitExit recvTimeout
    rw [hi, hf]
    constructor
    · intro h
      cases hi' : w.inp with
      | cons x r =>
        obtain ⟨t, m⟩ := x
        by_cases ht : t ≤ w1.now + 30000
        · by_cases hm : m = .notification .exit
          · simp [hi', ht, hm] at h
          · refine ⟨⟨.shutdown, .msg m⟩, ⟨_, t, r, ha, hi', ht, hm⟩, ?_⟩
            simp only [hi', ht, ↓reduceIte] at h
            cases h; rfl
        · refine ⟨⟨.shutdown, .nothing⟩, ⟨_, ha, ?_, ?_⟩, ?_⟩
          · intro t' m' r' h'
            rw [hi'] at h'
            cases h'
            omega
          · intro t' h'
            rw [hi'] at h'
            cases h'
          · simp only [hi', ht, ↓reduceIte] at h
            cases h; rfl
      | nil =>
        cases hf' : w.fin with
        | closedAt t =>
          by_cases ht : t ≤ w1.now + 30000
          · refine ⟨⟨.shutdown, .closed⟩, ⟨_, t, ha, hi', hf', ht⟩, ?_⟩
            simp only [hi', hf', ht, ↓reduceIte] at h
            cases h; rfl
          · refine ⟨⟨.shutdown, .nothing⟩, ⟨_, ha, ?_, ?_⟩, ?_⟩
            · intro t' m' r' h'
              rw [hi'] at h'
              cases h'
            · intro t' _ h'
              rw [hf'] at h'
              cases h'
              omega
            · simp only [hi', hf', ht, ↓reduceIte] at h
              cases h; rfl
        | silent =>
          refine ⟨⟨.shutdown, .nothing⟩, ⟨_, ha, ?_, ?_⟩, ?_⟩
          · intro t' m' r' h'
            rw [hi'] at h'
            cases h'
          · intro t' _ h'
            rw [hf'] at h'
            cases h'
          · simp only [hi', hf'] at h
            cases h; rfl
    · rintro ⟨⟨ph, m⟩, h, rfl⟩
      cases ph <;> try (cases m <;> cases h; done)
      cases m with
      | msg m =>
        obtain ⟨start, t, r, ha', hi', ht, hm⟩ := h
        cases ha.symm.trans ha'
        simp only [hi', ht, ↓reduceIte]
        rfl
      | closed =>
        obtain ⟨start, t, ha', hi', hf', ht⟩ := h
        cases ha.symm.trans ha'
        simp only [hi', hf', ht, ↓reduceIte]
        rfl
      | nothing =>
        obtain ⟨start, ha', h1, h2⟩ := h
        cases ha.symm.trans ha'
        cases hi' : w.inp with
        | cons x r =>
          have := h1 x.1 x.2 r hi'
          simp only [show ¬ x.1 ≤ w1.now + 30000 by omega, ↓reduceIte]
          rfl
        | nil =>
          cases hf' : w.fin with
          | closedAt t =>
            have := h2 t hi' hf'
            simp only [show ¬ t ≤ w1.now + 30000 by omega, ↓reduceIte]
            rfl
          | silent => rfl
  obtain ⟨inp, fin, out, outEnd, now, sent, calls⟩ := w
  cases out with
  | cons d ds => exact key ⟨inp, fin, ds, outEnd, now + d, _, calls⟩ _ rfl rfl rfl rfl
  | nil =>
    cases outEnd with
    | closed => exact key ⟨inp, fin, [], .closed, now, sent, calls⟩ _ rfl rfl rfl rfl
    | stuck =>
      constructor
      · intro h; cases h
      · rintro ⟨⟨ph, m⟩, h, rfl⟩
        cases ph <;> cases m <;> try (cases h; done)
        · obtain ⟨_, _, _, h, _⟩ := h; cases h
        · obtain ⟨_, _, h, _⟩ := h; cases h
        · obtain ⟨_, h, _⟩ := h; cases h

theorem msg_head (m : Message) : ∃ c s, (Dbg.msg m).toList = c :: s ∧ c ≠ 'e' := by
  cases m with
  | request r => rw [msg_request]; exact ⟨'R', _, by simp; rfl, by decide⟩
  | response r => rw [msg_response]; exact ⟨'R', _, by simp; rfl, by decide⟩
  | notification r => rw [msg_notification]; exact ⟨'N', _, by simp; rfl, by decide⟩

theorem text_before {m} : causeText ⟨.before, .msg m⟩ = "expected initialize request, got " ++ Dbg.msg m := rfl
theorem text_before_closed :
    causeText ⟨.before, .closed⟩ = "expected initialize request, got error: " ++ Dbg.recvError := rfl
theorem text_before_nothing :
    causeText ⟨.before, .nothing⟩ = "expected initialize request, got error: " ++ Dbg.recvError := rfl
theorem text_after {m} : causeText ⟨.after, .msg m⟩ = "expected Message::Notification, got: " ++ Dbg.msg m := rfl
theorem text_after_closed :
    causeText ⟨.after, .closed⟩ = "expected initialized notification, got error: " ++ Dbg.recvError := rfl
theorem text_after_nothing :
    causeText ⟨.after, .nothing⟩ = "expected initialized notification, got error: " ++ Dbg.recvError := rfl
theorem text_shutdown {m} :
    causeText ⟨.shutdown, .msg m⟩ = "unexpected message during shutdown: " ++ Dbg.msg m := rfl
theorem text_shutdown_closed :
    causeText ⟨.shutdown, .closed⟩ = "unexpected error during shutdown: " ++ Dbg.disconnected := rfl
theorem text_shutdown_nothing :
    causeText ⟨.shutdown, .nothing⟩ = "unexpected error during shutdown: " ++ Dbg.timeout := rfl

theorem causeText_inj {a b : Spec.Cause} (h : causeText a = causeText b) : a.about = b.about := by
  obtain ⟨p, x⟩ := a
  obtain ⟨q, y⟩ := b
  replace h := congrArg String.toList h
  have hh := msg_head
  cases p <;> cases q <;> cases x <;> cases y <;>
    simp only [text_before, text_before_closed, text_before_nothing, text_after, text_after_closed,
      text_after_nothing, text_shutdown, text_shutdown_closed, text_shutdown_nothing, String.toList_append,
      String.reduceToList, List.cons_append, List.nil_append, List.cons.injEq, true_and, Char.reduceEq, false_and,
      String.toList_inj] at h <;> try rfl
  all_goals try (simp only [Spec.Cause.about, Spec.Came.about, msg_subject h]; done)
  · obtain ⟨c, s, h1, h2⟩ := hh (by assumption)
    rw [h1] at h
    simp only [List.cons.injEq] at h
    exact absurd h.1 h2
  · obtain ⟨c, s, h1, h2⟩ := hh (by assumption)
    rw [h1] at h
    simp only [List.cons.injEq] at h
    exact absurd h.1 h2
  · obtain ⟨c, s, h1, h2⟩ := hh (by assumption)
    rw [h1] at h
    simp only [List.cons.injEq] at h
    exact absurd h.1.symm h2
  · obtain ⟨c, s, h1, h2⟩ := hh (by assumption)
    rw [h1] at h
    simp only [List.cons.injEq] at h
    exact absurd h.1.symm h2

/-- C87: the text of an error tells whether it came while waiting for build/initialize, for build/initialized or for
exit, whether a message caused it, and of this message the kind, the id (for a request or response), whether a response
has a result, and if not the code and the message of its error if any, and the method (for a notification).  The handshake and the shutdown fail exactly for these causes, with this text. -/
theorem C87_cause : ∃ text : Spec.Cause → String,
    (∀ a b, text a = text b → a.about = b.about) ∧
    (∀ process w e, (handshake process w).1 = .err e ↔ ∃ c, Spec.Breaks process w c ∧ e = text c) ∧
    (∀ id w e, (handleShutdown (.shutdown id) w).1 = .err e ↔ ∃ c, Spec.BreaksShutdown w c ∧ e = text c) := by
  refine ⟨causeText, fun a b => causeText_inj, fun process w e => ⟨fun h => ?_, ?_⟩, shutdown_text⟩
  · obtain ⟨c, hc⟩ := break_exists h
    refine ⟨c, hc, ?_⟩
    rw [break_text hc] at h
    cases h
    rfl
  · rintro ⟨c, hc, rfl⟩
    exact break_text hc

/-- A request without params, or one that the library does not know: its text shows the method and not the params alone. -/
def Spec.ByName : Request → Prop
  | .shutdown _ | .workspaceBuildTargets _ | .workspaceReload _ | .custom _ _ _ => True
  | _ => False

theorem after_shutdown {i} : Dbg.afterId (.shutdown i) = strDebug Dbg.odd "Shutdown" := rfl
theorem after_targets {i} : Dbg.afterId (.workspaceBuildTargets i) = strDebug Dbg.odd "WorkspaceBuildTargets" := rfl
theorem after_reload {i} : Dbg.afterId (.workspaceReload i) = strDebug Dbg.odd "WorkspaceReload" := rfl
theorem after_custom {i m v} : Dbg.afterId (.custom i m v) = strDebug Dbg.odd m ++ ",\n".toList ++ Dbg.value v := rfl

theorem named_inj {a b : Request} (ha : Spec.ByName a) (hb : Spec.ByName b) (h : Dbg.reqText a = Dbg.reqText b) :
    a.method = b.method := by
  simp only [Dbg.reqText, List.append_assoc] at h
  have h2 : Dbg.afterId a = Dbg.afterId b := by
    have := (display_inj (noDigit_cons (by decide)) (noDigit_cons (by decide)) h).2
    exact List.append_cancel_left (as := ", ".toList) this
  have e : ∀ s, strDebug Dbg.odd s = strDebug Dbg.odd s ++ [] := by simp
  cases a <;> cases b <;> simp only [Spec.ByName] at ha hb <;>
    simp only [after_shutdown, after_targets, after_reload, after_custom, List.append_assoc] at h2 <;> try rfl
  all_goals first
    | (rw [e "Shutdown", e "WorkspaceBuildTargets"] at h2; exact absurd (strDebug_inj h2).1 (by decide))
    | (rw [e "Shutdown", e "WorkspaceReload"] at h2; exact absurd (strDebug_inj h2).1 (by decide))
    | (rw [e "WorkspaceReload", e "WorkspaceBuildTargets"] at h2; exact absurd (strDebug_inj h2).1 (by decide))
    | (rw [e "Shutdown"] at h2; exact absurd (strDebug_inj h2).2 (by simp))
    | (rw [e "WorkspaceBuildTargets"] at h2; exact absurd (strDebug_inj h2).2 (by simp))
    | (rw [e "WorkspaceReload"] at h2; exact absurd (strDebug_inj h2).2 (by simp))
    | exact (strDebug_inj h2).1

/-- C87: a refusal on the wire carries the id of the request also in its text, so that two refusals with the same text
refuse requests with the same id; and with the same method, if they have no params or are not known to the library. -/
theorem C87_refusal : ∃ text : Request → String,
    (∀ a b, text a = text b → a.id = b.id) ∧
    (∀ a b, Spec.ByName a → Spec.ByName b → text a = text b → a.method = b.method) ∧
    ∀ (process : InitializeBuild → Option Value) (w : World) (early : List Request) (tail : List Message),
      w.msgs = early.map .request ++ tail → (∀ r ∈ early, ∀ i q, r ≠ .initializeBuild i q) →
      ∃ more, (handshake process w).2.sent = w.sent ++
        (early.take w.out.length).map (fun r => .response ⟨r.id, none, some ⟨-32002, text r, none⟩⟩) ++ more := by
  have key : ∀ a b, "expected initialize request, got " ++ Dbg.req a = "expected initialize request, got " ++ Dbg.req b →
      Dbg.reqText a = Dbg.reqText b := by
    intro a b h
    replace h := congrArg String.toList h
    simpa only [String.toList_append, List.append_cancel_left_eq, Dbg.req, String.toList_ofList] using h
  refine ⟨fun r => "expected initialize request, got " ++ Dbg.req r, fun a b h => ?_,
    fun a b ha hb h => named_inj ha hb (key a b h), sent_refusals⟩
  exact reqText_inj (s := []) (t := []) (by rw [key a b h])

/-- C87: exit before build/initialize gives this error. -/
theorem C87_exit (process : InitializeBuild → Option Value) (w : World) (early : List Request)
    (rest : List Message) (hm : w.msgs = early.map .request ++ .notification .exit :: rest)
    (he : ∀ r ∈ early, ∀ i q, r ≠ .initializeBuild i q) (hl : early.length ≤ w.out.length) :
    (handshake process w).1 = .err "expected initialize request, got Notification(Exit)" := by
  rw [break_text (c := ⟨.before, .msg (.notification .exit)⟩) ⟨early, rest, hm, he, hl, by simp⟩, text_before,
    msg_notification, note_exit]
  congr 1

/-- What an extraction error is about: whether the params could not be read, and the method. -/
def Spec.extract {α : Type _} (method : α → String) : ExtractError α → Bool × String
  | .methodMismatch r => (false, method r)
  | .jsonError m _ => (true, m)

omit [Ext] [Dbg] in
theorem sep_inj {a b x y : List Char} (ha : '\n' ∉ a) (hb : '\n' ∉ b) (h : a ++ '\n' :: x = b ++ '\n' :: y) :
    a = b ∧ x = y := by
  induction a generalizing b with
  | nil =>
    cases b with
    | nil => simpa using h
    | cons c b => simp at h; exact absurd (by simp [← h.1]) hb
  | cons d a ih =>
    cases b with
    | nil => simp at h; exact absurd (by simp [h.1]) ha
    | cons c b =>
      simp only [List.cons_append, List.cons.injEq] at h
      obtain ⟨h1, h2⟩ := ih (fun h => ha (List.mem_cons_of_mem _ h)) (fun h => hb (List.mem_cons_of_mem _ h)) h.2
      exact ⟨by rw [h.1, h1], h2⟩

omit [Dbg] in
theorem req_mismatch {r} : ExtractError.ofRequest (.methodMismatch r) =
    "Method mismatch for request '" ++ r.method ++ "'" := rfl
omit [Dbg] in
theorem req_json {m e} : ExtractError.ofRequest (.jsonError m e) =
    "Invalid request\nMethod: " ++ m ++ "\n error: " ++ e := rfl
omit [Dbg] in
theorem note_mismatch {r} : ExtractError.ofNotification (.methodMismatch r) =
    "Method mismatch for notification '" ++ r.method ++ "'" := rfl
omit [Dbg] in
theorem note_json {m e} : ExtractError.ofNotification (.jsonError m e) =
    "Invalid notification\nMethod: " ++ m ++ "\n error: " ++ e := rfl

omit [Dbg] in
/-- C87: the text of an extraction error tells whether it is about a request or a notification, whether the method is
another one or the params cannot be read, and the method (if it has no line break). -/
theorem C87_extract :
    (∀ a b : ExtractError Request, '\n' ∉ (Spec.extract Request.method a).2.toList →
      '\n' ∉ (Spec.extract Request.method b).2.toList →
      a.ofRequest = b.ofRequest → Spec.extract Request.method a = Spec.extract Request.method b) ∧
    (∀ a b : ExtractError Notification, '\n' ∉ (Spec.extract Notification.method a).2.toList →
      '\n' ∉ (Spec.extract Notification.method b).2.toList →
      a.ofNotification = b.ofNotification → Spec.extract Notification.method a = Spec.extract Notification.method b) ∧
    (∀ (a : ExtractError Request) (b : ExtractError Notification), a.ofRequest ≠ b.ofNotification) := by
  refine ⟨?_, ?_, ?_⟩
  · intro a b ha hb h
    replace h := congrArg String.toList h
    cases a <;> cases b <;> simp only [req_mismatch, req_json, String.toList_append, String.reduceToList,
      List.cons_append, List.nil_append, List.append_assoc, List.cons.injEq, true_and, Char.reduceEq, false_and] at h
    · simp only [List.append_cancel_right_eq, String.toList_inj] at h
      simp only [Spec.extract, h]
    · have := (sep_inj ha hb h).1
      simp only [String.toList_inj, Spec.extract] at this
      simp only [Spec.extract, this]
  · intro a b ha hb h
    replace h := congrArg String.toList h
    cases a <;> cases b <;> simp only [note_mismatch, note_json, String.toList_append, String.reduceToList,
      List.cons_append, List.nil_append, List.append_assoc, List.cons.injEq, true_and, Char.reduceEq, false_and] at h
    · simp only [List.append_cancel_right_eq, String.toList_inj] at h
      simp only [Spec.extract, h]
    · have := (sep_inj ha hb h).1
      simp only [String.toList_inj, Spec.extract] at this
      simp only [Spec.extract, this]
  · intro a b h
    replace h := congrArg String.toList h
    cases a <;> cases b <;> simp only [note_mismatch, note_json, req_mismatch, req_json, String.toList_append,
      String.reduceToList, List.cons_append, List.nil_append, List.append_assoc, List.cons.injEq, true_and,
      Char.reduceEq, false_and] at h

end

/-! ### Examples -/

/-- Beside C86_followed: the id 1 before `2`, and the id 12, have the same text; before `)` no two ids have. -/
example (b : RequestId) (h : (RequestId.i32 1).display (fun _ => false) ++ [')'] = b.display (fun _ => false) ++ [')']) :
    b = .i32 1 ∧ (RequestId.i32 1).display (fun _ => false) ++ ['2'] = (RequestId.i32 12).display (fun _ => false) :=
  have hn : Spec.NoDigit [')'] := by rintro c r ⟨⟩; rfl
  ⟨((C86_followed hn hn).1 h).1.symm, by decide⟩

/-- Beside C86: the number 5 and the text "5" have different texts. -/
example : (RequestId.i32 5).display (fun _ => false) = "5".toList ∧
    (RequestId.str "5").display (fun _ => false) = "\"5\"".toList := by decide

/-- Beside C86: a quote inside is escaped, so that the end of the text is seen. -/
example : (RequestId.str "a\", 1").display (fun _ => false) = "\"a\\\", 1\"".toList := by decide

/-- Beside C86: numbers before texts. -/
example : (RequestId.i32 7).less (.str "") = true ∧ (RequestId.i32 (-1)).less (.i32 0) = true ∧
    (RequestId.str "B").less (.str "a") = true ∧ (RequestId.str "a").less (.str "ab") = true := by decide

section
attribute [local instance] Ext.sample FloatText.sample Dbg.sample
open Conn

/-- Beside C86: what is written for the id 5 and for the id "5". -/
example : Text.print (RequestId.i32 5).enc = "5".toList ∧ Text.print (RequestId.str "5").enc = "\"5\"".toList :=
  ⟨by rfl, by rfl⟩

/-- Shutdown before build/initialize, then exit. -/
def sampleHasty : World where
  inp := [(1, .request (.shutdown (.i32 3))), (2, .notification .exit)]
  fin := .silent
  out := [1]
  outEnd := .stuck
  now := 0
  sent := []
  calls := []

/-- Beside C87: the cause for which this handshake fails. -/
example (process : InitializeBuild → Option Value) :
    Spec.Breaks process sampleHasty ⟨.before, .msg (.notification .exit)⟩ :=
  ⟨[.shutdown (.i32 3)], [], rfl, by simp, by decide, by simp⟩

/-- Beside C87: its error. -/
example (process : InitializeBuild → Option Value) :
    (handshake process sampleHasty).1 = .err "expected initialize request, got Notification(Exit)" :=
  C87_exit process sampleHasty [.shutdown (.i32 3)] [] rfl (by simp) (by decide)

/-- Beside C87: the text of the refusal that it sends first. -/
example : "expected initialize request, got " ++ Dbg.req (.shutdown (.i32 3)) =
    "expected initialize request, got 3, \"Shutdown\"" := by rfl

/-- Beside C87: a handshake that fails since the client goes on without build/initialized. -/
example : Spec.Breaks (fun _ => some Value.null)
    { sampleHasty with inp := [(1, .request (.initializeBuild (.i32 1) sampleInit)), (2, .request (.shutdown (.i32 2)))] }
    ⟨.after, .msg (.request (.shutdown (.i32 2)))⟩ :=
  ⟨[], .i32 1, sampleInit, [], rfl, by simp, by decide, by simp, by simp⟩

/-- Beside C87: a shutdown that fails since another request comes instead of exit, and one that fails since nothing
comes. -/
example : Spec.BreaksShutdown { sampleHasty with inp := [(5, .request (.workspaceReload (.i32 4)))] }
      ⟨.shutdown, .msg (.request (.workspaceReload (.i32 4)))⟩ ∧
    Spec.BreaksShutdown { sampleHasty with inp := [(40000, .notification .exit)] } ⟨.shutdown, .nothing⟩ :=
  ⟨⟨1, 5, [], rfl, rfl, by decide, by simp⟩, 1, rfl, by intro t m r h; cases h; decide, by intro t h; cases h⟩

/-- Beside C87_refusal: shutdown, and a request whose method looks like it. -/
example : Spec.ByName (.shutdown (.i32 3)) ∧ Spec.ByName (.custom (.i32 3) "Shutdown" Value.null) ∧
    Dbg.req (.shutdown (.i32 3)) ≠ Dbg.req (.custom (.i32 3) "Shutdown" Value.null) :=
  ⟨trivial, trivial, by decide +kernel⟩

/-- Beside C87: the text of a response that comes instead of exit, and what it says. -/
example : Dbg.msg (.response ⟨.i32 4, none, some ⟨-32800, "a\"b", none⟩⟩) =
      "Response(Response { id: RequestId(I32(4)), result: None, error: Some(ResponseError { code: -32800, " ++
        "message: \"a\\\"b\", data: None }) })" ∧
    Spec.subject (.response ⟨.i32 4, none, some ⟨-32800, "a\"b", none⟩⟩) = .response (.i32 4) (.error (-32800) "a\"b" false) :=
  ⟨by decide +kernel, rfl⟩

/-- Beside C87: an extraction error. -/
example : ExtractError.ofRequest (.methodMismatch (.custom (.i32 1) "a/b" Value.null)) =
      "Method mismatch for request 'a/b'" ∧
    '\n' ∉ (Spec.extract Request.method (.jsonError "a/b" "EOF")).2.toList := ⟨by rfl, by decide⟩

end
end Bsp
