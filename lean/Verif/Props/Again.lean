/-
C83, for everything that is said: what has been heard of a message can be said again, and is heard as what it is.
-/
import Verif.Props.Relay
import Verif.Props.Heard

set_option linter.unusedSectionVars false

namespace Bsp
open Frame Json

section
variable [FloatText]

/-- A tree that is not nested more deeply than another one, has only faithful numbers if that one has, and is not printed
longer. Proof helper for bsp-server/src/message.rs:42-49. -/
structure Thinner (j' j : Json) : Prop where
  nest : Spec.nest j' ≤ Spec.nest j
  numbers : Spec.Numbers j → Spec.Numbers j'
  text : (utf8 (Text.print j')).length ≤ (utf8 (Text.print j)).length

/-- The bytes of members, each with a comma. Proof helper for bsp-server/src/message.rs:42-49. -/
def membersSize : Members → Nat
  | [] => 0
  | (k, x) :: ms => (utf8 (Text.printStr k)).length + (utf8 (Text.print x)).length + 2 + membersSize ms

/-- The bytes of elements, each with a comma. Proof helper for bsp-server/src/message.rs:42-49. -/
def elemsSize : List Json → Nat
  | [] => 0
  | x :: xs => (utf8 (Text.print x)).length + 1 + elemsSize xs

/-- The same for members. Proof helper for bsp-server/src/message.rs:42-49. -/
structure ThinnerMembers (ms' ms : Members) : Prop where
  nest : Spec.nestMembers ms' ≤ Spec.nestMembers ms
  numbers : Spec.NumbersMembers ms → Spec.NumbersMembers ms'
  text : membersSize ms' ≤ membersSize ms

theorem utf8_cons_len (c : Char) (cs : List Char) : (utf8 (c :: cs)).length = (utf8 [c]).length + (utf8 cs).length := by
  rw [← List.length_append, ← utf8_append]; rfl

theorem utf8_ascii {c : Char} (h : (utf8 [c]).length = 1) (cs : List Char) :
    (utf8 (c :: cs)).length = 1 + (utf8 cs).length := by rw [utf8_cons_len, h]

theorem utf8_comma (cs : List Char) : (utf8 (',' :: cs)).length = 1 + (utf8 cs).length := utf8_ascii (by decide) cs
theorem utf8_colon (cs : List Char) : (utf8 (':' :: cs)).length = 1 + (utf8 cs).length := utf8_ascii (by decide) cs
theorem utf8_brace (cs : List Char) : (utf8 ('{' :: cs)).length = 1 + (utf8 cs).length := utf8_ascii (by decide) cs
theorem utf8_bracket (cs : List Char) : (utf8 ('[' :: cs)).length = 1 + (utf8 cs).length := utf8_ascii (by decide) cs

theorem printMembers_len : ∀ ms : Members, (utf8 (Text.printMembers ms)).length = membersSize ms - 1
  | [] => rfl
  | [(k, x)] => by
    simp only [Text.printMembers, membersSize, utf8_append, List.length_append, utf8_colon]
    omega
  | (k, x) :: m :: ms => by
    have ih := printMembers_len (m :: ms)
    have : 1 ≤ membersSize (m :: ms) := by simp only [membersSize]; omega
    rw [membersSize, Text.printMembers]
    simp only [List.append_assoc, List.cons_append, utf8_append, List.length_append, utf8_colon, utf8_comma, ih]
    omega

theorem printElems_len : ∀ xs : List Json, (utf8 (Text.printElems xs)).length = elemsSize xs - 1
  | [] => rfl
  | [x] => by simp only [Text.printElems, elemsSize]; omega
  | x :: y :: xs => by
    have ih := printElems_len (y :: xs)
    have : 1 ≤ elemsSize (y :: xs) := by simp only [elemsSize]; omega
    rw [elemsSize, Text.printElems]
    simp only [utf8_append, List.length_append, utf8_comma, ih]
    omega

theorem thinner_refl (j : Json) : Thinner j j := ⟨Nat.le_refl _, id, Nat.le_refl _⟩
theorem thin_refl (ms : Members) : ThinnerMembers ms ms := ⟨Nat.le_refl _, id, Nat.le_refl _⟩

theorem thinner_obj {ms' ms : Members} (h : ThinnerMembers ms' ms) : Thinner (.obj ms') (.obj ms) := by
  refine ⟨?_, ?_, ?_⟩
  · simp only [Spec.nest]; have := h.nest; omega
  · simp only [Spec.Numbers]; exact h.numbers
  · have := h.text
    simp only [Text.print, utf8_brace, utf8_append, List.length_append, printMembers_len]
    omega

theorem nestMembers_append (a b : Members) : Spec.nestMembers (a ++ b) = max (Spec.nestMembers a) (Spec.nestMembers b) := by
  induction a with
  | nil => simp [Spec.nestMembers]
  | cons x a ih =>
    obtain ⟨k, v⟩ := x
    simp only [List.cons_append, Spec.nestMembers, ih]
    omega

theorem numbersMembers_append (a b : Members) :
    Spec.NumbersMembers (a ++ b) ↔ Spec.NumbersMembers a ∧ Spec.NumbersMembers b := by
  induction a with
  | nil => simp [Spec.NumbersMembers]
  | cons x a ih =>
    obtain ⟨k, v⟩ := x
    simp only [List.cons_append, Spec.NumbersMembers, ih, and_assoc]

theorem membersSize_append (a b : Members) : membersSize (a ++ b) = membersSize a + membersSize b := by
  induction a with
  | nil => simp [membersSize]
  | cons x a ih =>
    obtain ⟨k, v⟩ := x
    simp only [List.cons_append, membersSize, ih]
    omega

theorem thin_append {a' a b' b : Members} (h1 : ThinnerMembers a' a) (h2 : ThinnerMembers b' b) :
    ThinnerMembers (a' ++ b') (a ++ b) := by
  refine ⟨?_, ?_, ?_⟩
  · rw [nestMembers_append, nestMembers_append]; have := h1.nest; have := h2.nest; omega
  · rw [numbersMembers_append, numbersMembers_append]; exact fun h => ⟨h1.numbers h.1, h2.numbers h.2⟩
  · rw [membersSize_append, membersSize_append]; have := h1.text; have := h2.text; omega

theorem thin_cons {k : String} {j' j : Json} {ms' ms : Members} (h1 : Thinner j' j) (h2 : ThinnerMembers ms' ms) :
    ThinnerMembers ((k, j') :: ms') ((k, j) :: ms) := by
  refine ⟨?_, ?_, ?_⟩
  · simp only [Spec.nestMembers]; have := h1.nest; have := h2.nest; omega
  · simp only [Spec.NumbersMembers]; exact fun h => ⟨h1.numbers h.1, h2.numbers h.2⟩
  · simp only [membersSize]; have := h1.text; have := h2.text; omega

theorem thin_fld {k : String} {j' j : Json} (h : Thinner j' j) : ThinnerMembers (fld k j') (fld k j) :=
  thin_cons h (thin_refl [])

theorem thin_nil (ms : Members) : ThinnerMembers [] ms := by
  refine ⟨?_, fun _ => trivial, ?_⟩
  · simp [Spec.nestMembers]
  · simp [membersSize]

/-- A datum that is null is left out. -/
theorem thin_data {k : String} (o : Option Value) :
    ThinnerMembers (skipNone k Value.json (normData o)) (skipNone k Value.json o) := by
  cases o with
  | none => exact thin_refl _
  | some v =>
    simp only [normData]
    cases v.isNull with
    | true => exact thin_nil _
    | false => exact thin_refl _

theorem thin_skip {α : Type} {k : String} {enc : α → Json} {f : α → α} (h : ∀ x, Thinner (enc (f x)) (enc x)) (o : Option α) :
    ThinnerMembers (skipNone k enc (o.map f)) (skipNone k enc o) := by
  cases o with
  | none => exact thin_refl _
  | some v => exact thin_fld (h v)

theorem thinner_list {α : Type} {enc : α → Json} {f : α → α} (h : ∀ x, Thinner (enc (f x)) (enc x)) (xs : List α) :
    Thinner (encList enc (xs.map f)) (encList enc xs) := by
  have key : Spec.nestList ((xs.map f).map enc) ≤ Spec.nestList (xs.map enc) ∧
      (Spec.NumbersList (xs.map enc) → Spec.NumbersList ((xs.map f).map enc)) ∧
      elemsSize ((xs.map f).map enc) ≤ elemsSize (xs.map enc) := by
    induction xs with
    | nil => exact ⟨Nat.le_refl _, id, Nat.le_refl _⟩
    | cons x xs ih =>
      obtain ⟨h1, h2, h3⟩ := ih
      have hx := h x
      simp only [List.map_cons, Spec.nestList, Spec.NumbersList, elemsSize]
      exact ⟨by have := hx.nest; omega, fun h => ⟨hx.numbers h.1, h2 h.2⟩, by have := hx.text; omega⟩
  obtain ⟨h1, h2, h3⟩ := key
  refine ⟨?_, ?_, ?_⟩
  · simp only [encList, Spec.nest]; omega
  · simp only [encList, Spec.Numbers]; exact h2
  · simp only [encList, Text.print, utf8_bracket, utf8_append, List.length_append, printElems_len]
    omega

end

section
variable [Ext] [FloatText]

theorem kind_same (k : TaskDataKind) : k.norm.enc = k.enc ∧ k.norm.isNone = k.isNone := by
  cases k with
  | custom s =>
    simp only [TaskDataKind.norm, TaskDataKind.ofString]
    repeat' split
    all_goals (try subst_vars); exact ⟨rfl, rfl⟩
  | _ => exact ⟨rfl, rfl⟩

theorem initialize_thin (x : InitializeBuild) : Thinner x.norm.enc x.enc :=
  thinner_obj (thin_append (thin_refl _) (thin_data _))
theorem run_thin (x : BuildTargetRun) : Thinner x.norm.enc x.enc :=
  thinner_obj (thin_append (thin_refl _) (thin_data _))
theorem test_thin (x : BuildTargetTest) : Thinner x.norm.enc x.enc :=
  thinner_obj (thin_append (thin_refl _) (thin_data _))
theorem diagnostic_thin (x : Diagnostic) : Thinner x.norm.enc x.enc :=
  thinner_obj (thin_append (thin_refl _) (thin_data _))
theorem event_thin (x : BuildTargetEvent) : Thinner x.norm.enc x.enc :=
  thinner_obj (thin_append (thin_refl _) (thin_data _))
theorem error_thin (x : ResponseError) : Thinner x.norm.enc x.enc :=
  thinner_obj (thin_append (thin_refl _) (thin_data _))
theorem diagnostics_thin (x : PublishDiagnostics) : Thinner x.norm.enc x.enc :=
  thinner_obj (thin_append (thin_append (thin_refl _) (thin_fld (thinner_list diagnostic_thin _))) (thin_refl _))
theorem changes_thin (x : BuildTargetDidChange) : Thinner x.norm.enc x.enc :=
  thinner_obj (thin_fld (thinner_list event_thin _))
theorem start_thin (x : TaskStart) : Thinner x.norm.enc x.enc := by
  simp only [TaskStart.norm, TaskStart.enc, kind_same]; exact thinner_refl _
theorem finish_thin (x : TaskFinish) : Thinner x.norm.enc x.enc := by
  simp only [TaskFinish.norm, TaskFinish.enc, kind_same]; exact thinner_refl _
theorem progress_thin (x : TaskProgress) : Thinner x.norm.enc x.enc := by
  simp only [TaskProgress.norm, TaskProgress.enc, kind_same]; exact thinner_refl _
theorem response_thin (x : Response) : ThinnerMembers x.norm.members x.members :=
  thin_append (thin_append (thin_refl _) (thin_data _)) (thin_skip error_thin _)

/-- What is left of a message after the wire is not more than the message. -/
theorem norm_thin (m : Message) : Thinner m.norm.enc m.enc := by
  have one : ∀ {k : String} {j' j : Json} {ms : Members}, Thinner j' j →
      ThinnerMembers (ms ++ [(k, j')]) (ms ++ [(k, j)]) := fun h => thin_append (thin_refl _) (thin_cons h (thin_refl _))
  cases m with
  | request r =>
    cases r with
    | initializeBuild id p => exact thinner_obj (one (ms := [_, _, _]) (initialize_thin p))
    | buildTargetRun id p => exact thinner_obj (one (ms := [_, _, _]) (run_thin p))
    | buildTargetTest id p => exact thinner_obj (one (ms := [_, _, _]) (test_thin p))
    | _ => exact thinner_refl _
  | response r => exact thinner_obj (thin_cons (thinner_refl _) (response_thin r))
  | notification n =>
    cases n with
    | taskStart p => exact thinner_obj (one (ms := [_, _]) (start_thin p))
    | taskFinish p => exact thinner_obj (one (ms := [_, _]) (finish_thin p))
    | taskProgress p => exact thinner_obj (one (ms := [_, _]) (progress_thin p))
    | publishDiagnostics p => exact thinner_obj (one (ms := [_, _]) (diagnostics_thin p))
    | buildTargetDidChange p => exact thinner_obj (one (ms := [_, _]) (changes_thin p))
    | _ => exact thinner_refl _

/-- The digits of a smaller number are not more. -/
theorem digits_mono {a b : Nat} (h : a ≤ b) : (Nat.toDigits 10 a).length ≤ (Nat.toDigits 10 b).length := by
  have hp : 0 < (Nat.toDigits 10 b).length := Nat.length_toDigits_pos
  have := (Nat.length_toDigits_le_iff (b := 10) (n := b) (by decide) hp).1 (Nat.le_refl _)
  exact (Nat.length_toDigits_le_iff (by decide) hp).2 (by omega)

theorem utf8_digits (n : Nat) : (utf8 (Nat.toDigits 10 n)).length = (Nat.toDigits 10 n).length := by
  have : ∀ cs : List Char, (∀ c ∈ cs, c.isDigit = true) → (utf8 cs).length = cs.length := by
    intro cs
    induction cs with
    | nil => intro _; rfl
    | cons c cs ih =>
      intro h
      rw [utf8_cons_len, ih (fun d hd => h d (List.mem_cons_of_mem _ hd))]
      have hc := h c (by simp)
      have h1 : (utf8 [c]).length = 1 := by
        simp only [utf8, List.flatMap_cons, List.flatMap_nil, List.append_nil, String.length_utf8EncodeChar]
        simp only [Char.isDigit, Bool.and_eq_true, decide_eq_true_eq] at hc
        have := hc.2
        simp only [Char.utf8Size]
        rw [if_pos]
        exact Nat.le_trans (UInt32.le_iff_toNat_le.1 this) (by decide)
      rw [h1, List.length_cons]; omega
  exact this _ (fun c hc => Nat.isDigit_of_mem_toDigits (by decide) (by decide) hc)

/-- So it can be carried as well. -/
theorem carried_thin {m' m : Message} (h : Thinner m'.enc m.enc) (hc : Spec.Carried m) : Spec.Carried m' := by
  refine ⟨Nat.le_trans h.nest hc.nest, h.numbers hc.numbers, Nat.le_trans ?_ hc.size⟩
  have h1 : (utf8 (msgText m')).length ≤ (utf8 (msgText m)).length := h.text
  have h2 := digits_mono h1
  simp only [Frame.write, Frame.frame, utf8_append, List.length_append, utf8_digits]
  omega

end

section
variable [LawfulExt] [FloatText]

/-- A request that is heard as a response is not heard as a request. -/
theorem heard_no_bare {m : Message} {r : Request} (h : Spec.heard m = .request r) : ¬ Spec.Bare r := by
  rintro ⟨id, hb⟩
  cases m with
  | request q =>
    cases q with
    | custom i n v =>
      simp only [Spec.heard] at h
      cases e : v.isNull with
      | true => simp [e] at h
      | false =>
        simp [e] at h
        subst h
        rcases hb with hb | hb | hb | ⟨n', hb⟩ <;> cases hb
        cases e
    | _ =>
      simp [Spec.heard, Message.norm, Request.norm] at h
      try (subst h; rcases hb with hb | hb | hb | ⟨n', hb⟩ <;> cases hb)
  | response q => simp [Spec.heard, Message.norm] at h
  | notification n => simp [Spec.heard, Message.norm] at h

theorem heard_thin {m : Message} (h : Spec.Sayable m) : Thinner (Spec.heard m).enc m.enc := by
  rcases h.kind with h1 | ⟨r, rfl, id, hb⟩
  · rw [heard_wireOk h1]; exact norm_thin m
  · have cut : ∀ ms : Members, Thinner (.obj [("jsonrpc", .str "2.0"), ("id", id.enc)])
        (.obj ([("jsonrpc", .str "2.0"), ("id", id.enc)] ++ ms)) := fun ms => by
      have := thinner_obj (thin_append (thin_refl [("jsonrpc", .str "2.0"), ("id", id.enc)]) (thin_nil ms))
      simpa using this
    rcases hb with rfl | rfl | rfl | ⟨n, rfl⟩
    · exact cut [("method", _)]
    · exact cut [("method", _)]
    · exact cut [("method", _)]
    · exact cut [("method", .str n)]

/-- C83: what is heard of a message that can be said can be said again (it is not longer, not more deeply nested, and
has no other numbers), and is heard as exactly what it is: after one hop nothing changes any more. -/
theorem C83_heard {m : Message} (h : Spec.Sayable m) :
    Spec.Sayable (Spec.heard m) ∧ Spec.heard (Spec.heard m) = Spec.heard m ∧
    (write (Spec.heard m)).length ≤ (write m).length := by
  have hd := sayable_dec h
  have hw : Spec.WireOk (Spec.heard m) := received_wireOk hd (fun r hr => heard_no_bare hr)
  have ht := heard_thin h
  refine ⟨⟨.inl hw, carried_thin ht h.carried⟩, ?_, ?_⟩
  · rw [heard_wireOk hw]
    exact Message.norm_plain _ (received_plain hd)
  · have h1 : (utf8 (msgText (Spec.heard m))).length ≤ (utf8 (msgText m)).length := ht.text
    have h2 := digits_mono h1
    simp only [Frame.write, Frame.frame, utf8_append, List.length_append, utf8_digits]
    omega

end

section
attribute [local instance] Ext.sample FloatText.sample

/-- A response with the result null, which is heard as one without a result. Sample, not in /repo. -/
def nullResult : Message := .response ⟨.i32 7, some Value.null, none⟩

theorem nullResult_sayable : Spec.Sayable nullResult :=
  ⟨.inl trivial, by
    refine ⟨by decide, ?_, by decide⟩
    simp [nullResult, Message.enc, Message.members, Response.members, RequestId.enc, fld, skipNone, encI32, Spec.Numbers,
      Spec.NumbersMembers, Value.null, Value.json]⟩

/-- Beside C83_heard: a message that is shorter after one hop, and does not change after that. -/
example : Spec.heard nullResult = .response ⟨.i32 7, none, none⟩ ∧ Spec.heard nullResult ≠ nullResult ∧
    Spec.heard (Spec.heard nullResult) = Spec.heard nullResult :=
  ⟨rfl, (by intro h; cases h), (C83_heard nullResult_sayable).2.1⟩

end
end Bsp
