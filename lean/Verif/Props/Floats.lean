/-
C105: what becomes of messages with doubles in them, with the text of doubles as serde_json and ryu have it
(Verif/Double.lean): nothing is assumed about floats any more.
-/
import Verif.Floats
import Verif.Props.Double

set_option linter.unusedSectionVars false

namespace Bsp
open Json Spec Frame

/-! ### Texts in which the doubles are read as other doubles -/

theorem floatsList_iff {P : F64 → Prop} {xs : List Json} : FloatsList P xs ↔ ∀ x ∈ xs, Floats P x := by
  induction xs with
  | nil => simp [FloatsList]
  | cons x xs ih => simp [FloatsList, ih]

theorem floatsMembers_iff {P : F64 → Prop} {ms : Members} : FloatsMembers P ms ↔ ∀ m ∈ ms, Floats P m.2 := by
  induction ms with
  | nil => simp [FloatsMembers]
  | cons m ms ih => obtain ⟨k, x⟩ := m; simp [FloatsMembers, ih]

mutual
theorem floats_mono {P Q : F64 → Prop} (h : ∀ f, P f → Q f) : ∀ {j : Json}, Floats P j → Floats Q j
  | .arr xs, hj => by simp only [Floats] at hj ⊢; exact floatsList_mono h hj
  | .obj ms, hj => by simp only [Floats] at hj ⊢; exact floatsMembers_mono h hj
  | .float f, hj => h f hj
  | .null, _ => trivial
  | .bool _, _ => trivial
  | .int _, _ => trivial
  | .str _, _ => trivial
theorem floatsList_mono {P Q : F64 → Prop} (h : ∀ f, P f → Q f) : ∀ {xs : List Json}, FloatsList P xs → FloatsList Q xs
  | [], _ => trivial
  | x :: xs, hj => ⟨floats_mono h hj.1, floatsList_mono h hj.2⟩
theorem floatsMembers_mono {P Q : F64 → Prop} (h : ∀ f, P f → Q f) : ∀ {ms : Members},
    FloatsMembers P ms → FloatsMembers Q ms
  | [], _ => trivial
  | (_, x) :: ms, hj => ⟨floats_mono h hj.1, floatsMembers_mono h hj.2⟩
end

mutual
theorem floats_iff {P : F64 → Prop} {r : F64 → F64} (h : ∀ f, P f ↔ r f = f) : ∀ {j : Json}, Floats P j ↔ mapFloats r j = j
  | .arr xs => by simp only [Floats, mapFloats, Json.arr.injEq]; exact floatsList_iff' h
  | .obj ms => by simp only [Floats, mapFloats, Json.obj.injEq]; exact floatsMembers_iff' h
  | .float f => by simp only [Floats, mapFloats, Json.float.injEq]; exact h f
  | .null => by simp [Floats, mapFloats]
  | .bool _ => by simp [Floats, mapFloats]
  | .int _ => by simp [Floats, mapFloats]
  | .str _ => by simp [Floats, mapFloats]
theorem floatsList_iff' {P : F64 → Prop} {r : F64 → F64} (h : ∀ f, P f ↔ r f = f) : ∀ {xs : List Json},
    FloatsList P xs ↔ mapFloatsList r xs = xs
  | [] => by simp [FloatsList, mapFloatsList]
  | x :: xs => by simp only [FloatsList, mapFloatsList, List.cons.injEq, floats_iff h (j := x), floatsList_iff' h (xs := xs)]
theorem floatsMembers_iff' {P : F64 → Prop} {r : F64 → F64} (h : ∀ f, P f ↔ r f = f) : ∀ {ms : Members},
    FloatsMembers P ms ↔ mapFloatsMembers r ms = ms
  | [] => by simp [FloatsMembers, mapFloatsMembers]
  | (k, x) :: ms => by
    simp only [FloatsMembers, mapFloatsMembers, List.cons.injEq, Prod.mk.injEq, true_and, floats_iff h (j := x),
      floatsMembers_iff' h (ms := ms)]
end

/-- A property of all doubles in a tree is kept by decoding it as a message and encoding that. -/
theorem floats_dec [Ext] {P : F64 → Prop} {j : Json} {m : Message} (h : Message.dec j = some m) (hj : Floats P j) :
    Floats P m.enc := by
  classical
  have hr : ∀ f, P f ↔ (if P f then f else F64.mk (f.bits + 1)) = f := by
    intro f
    by_cases hp : P f
    · simp [hp]
    · simp only [hp, if_false, false_iff]
      intro e
      have : f.bits + 1 = f.bits := congrArg F64.bits e
      simp at this
  rw [floats_iff hr] at hj ⊢
  obtain ⟨m', h1, h2⟩ := dec_mapFloats (fun f => if P f then f else F64.mk (f.bits + 1)) h
  rw [hj, h] at h1
  cases h1
  exact h2.symm

mutual
theorem floatsOk_of [FloatText] : ∀ {j : Json}, Floats FloatOk j → FloatsOk j
  | .arr _, hj => by simp only [Floats, FloatsOk] at hj ⊢; exact floatsOkList_of hj
  | .obj _, hj => by simp only [Floats, FloatsOk] at hj ⊢; exact floatsOkMembers_of hj
  | .float _, hj => hj
  | .null, _ => trivial
  | .bool _, _ => trivial
  | .int _, _ => trivial
  | .str _, _ => trivial
theorem floatsOkList_of [FloatText] : ∀ {xs : List Json}, FloatsList FloatOk xs → FloatsOkList xs
  | [], _ => trivial
  | _ :: _, hj => ⟨floatsOk_of hj.1, floatsOkList_of hj.2⟩
theorem floatsOkMembers_of [FloatText] : ∀ {ms : Members}, FloatsMembers FloatOk ms → FloatsOkMembers ms
  | [], _ => trivial
  | (_, _) :: _, hj => ⟨floatsOk_of hj.1, floatsOkMembers_of hj.2⟩
end

section
variable [FloatText]
open Gram Text

theorem printElems_as {V : List Char → Json → Prop} (r : F64 → F64) :
    ∀ (xs : List Json), xs ≠ [] → (∀ x ∈ xs, V (print x) (mapFloats r x)) → Elems V (printElems xs) (mapFloatsList r xs)
  | [], h, _ => absurd rfl h
  | [x], _, h => by
    have := Elems.last ws_nil (h x (by simp)) ws_nil
    simpa [printElems, mapFloatsList] using this
  | x :: y :: xs, _, h => by
    have := Elems.more ws_nil (h x (by simp)) ws_nil
      (printElems_as r (y :: xs) (by simp) (fun z hz => h z (List.mem_cons_of_mem _ hz)))
    simpa [printElems, mapFloatsList] using this

theorem printMember_as {V : List Char → Json → Prop} {k : String} {x y : Json} (h : V (print x) y) :
    Member V (printStr k ++ ':' :: print x) (k, y) := by
  have := Member.mk ws_nil (escBody k.toList) ws_nil ws_nil h ws_nil
  rw [String.ofList_toList] at this
  simpa [printStr] using this

theorem printMembers_as {V : List Char → Json → Prop} (r : F64 → F64) :
    ∀ (ms : Members), ms ≠ [] → (∀ m ∈ ms, V (print m.2) (mapFloats r m.2)) →
      Mems V (printMembers ms) (mapFloatsMembers r ms)
  | [], h, _ => absurd rfl h
  | [(k, x)], _, h => by
    simpa [printMembers, mapFloatsMembers] using Mems.last (printMember_as (k := k) (h (k, x) (by simp)))
  | (k, x) :: m :: ms, _, h => by
    have := Mems.more (printMember_as (k := k) (h (k, x) (by simp)))
      (printMembers_as r (m :: ms) (by simp) (fun z hz => h z (List.mem_cons_of_mem _ hz)))
    simpa [printMembers, mapFloatsMembers] using this

/-- If the text of every double `f` of a tree denotes `r f`, the text of the tree denotes the tree with `r f` for `f`. -/
theorem print_as (r : F64 → F64) : ∀ (d : Nat) (j : Json), nest j ≤ d → IntsFit j →
    Floats (fun f => Num (FloatText.print f) (.float (r f))) j → Val d (print j) (mapFloats r j) := by
  have scalar : ∀ j : Json, (∀ xs, j ≠ .arr xs) → (∀ ms, j ≠ .obj ms) → IntsFit j →
      Floats (fun f => Num (FloatText.print f) (.float (r f))) j → Scalar (print j) (mapFloats r j) := by
    intro j ha ho hn hf
    cases j with
    | null => simp only [print]; exact .null
    | bool b =>
      cases b <;> simp only [print]
      · exact .false
      · exact .true
    | int i => simp only [print, IntsFit] at *; exact .num (printInt_spec hn.1 hn.2)
    | float f => simp only [print, Floats] at *; exact .num hf
    | str s => simp only [print]; exact printStr_spec s
    | arr xs => exact absurd rfl (ha xs)
    | obj ms => exact absurd rfl (ho ms)
  intro d
  induction d with
  | zero =>
    intro j hd hn hf
    refine scalar j ?_ ?_ hn hf <;> (rintro _ rfl; simp [nest] at hd)
  | succ d ih =>
    intro j hd hn hf
    cases j with
    | arr xs =>
      simp only [nest, IntsFit, Floats, print, mapFloats] at *
      right
      by_cases hx : xs = []
      · subst hx; exact .arrEmpty ws_nil
      · refine .arr (printElems_as r xs hx fun x hm => ih x ?_ (intsList_iff.1 hn x hm) (floatsList_iff.1 hf x hm))
        have := nestList_mem hm; omega
    | obj ms =>
      simp only [nest, IntsFit, Floats, print, mapFloats] at *
      right
      by_cases hx : ms = []
      · subst hx; exact .objEmpty ws_nil
      · refine .obj (printMembers_as r ms hx fun x hm => ih x.2 ?_ (intsMembers_iff.1 hn x hm) (floatsMembers_iff.1 hf x hm))
        have := nestMembers_mem hm; omega
    | _ => exact .inl (scalar _ (by simp) (by simp) hn hf)

theorem parse_print_as (r : F64 → F64) {j : Json} (hd : nest j ≤ 127) (hn : IntsFit j)
    (hf : Floats (fun f => Num (FloatText.print f) (.float (r f))) j) : parse (print j) = some (mapFloats r j) :=
  parse_iff.2 ⟨[], print j, [], ws_nil, print_as r 127 j hd hn hf, ws_nil, by simp⟩

theorem val_floats {P : F64 → Prop} (hP : ∀ cs f, FloatText.parse cs = some f → P f) :
    ∀ {d : Nat} {v j}, Val d v j → Floats P j := by
  have scalar : ∀ {v j}, Scalar v j → Floats P j := by
    intro v j h
    cases h with
    | num h =>
      cases h with
      | nat _ _ => trivial
      | neg _ _ _ => trivial
      | float _ _ _ _ _ _ h => exact hP _ _ h
    | _ => trivial
  intro d
  induction d with
  | zero => exact fun h => scalar h
  | succ d ih =>
    intro v j h
    rcases h with h | h
    · exact scalar h
    · cases h with
      | arrEmpty _ => trivial
      | arr h =>
        simp only [Floats]
        rw [floatsList_iff]
        intro x hx
        obtain ⟨v, hv⟩ := elems_mem h x hx
        exact ih hv
      | objEmpty _ => trivial
      | obj h =>
        simp only [Floats]
        rw [floatsMembers_iff]
        intro x hx
        obtain ⟨v, hv⟩ := mems_mem h x hx
        exact ih hv

end

/-! ### C105 -/

namespace Spec

/-- What the text of a double is read as (by serde_json, as in Verif/Double.lean).
Specification about the values of bsp-server/src/message.rs:37, 44. -/
def reread (f : F64) : F64 := (Double.read (Double.print f)).getD f

/-- Messages that can be sent: at most 127 levels, numbers that `serde_json::Number` can hold (its integers fit `u64` or
`i64`, its doubles are finite), and a text that fits into memory.
Specification about the messages of bsp-server/src/message.rs:42-49. -/
structure Sendable [Ext] (m : Message) : Prop where
  nest : Spec.nest m.enc ≤ 127
  ints : IntsFit m.enc
  finite : Floats F64.Finite m.enc
  size : (@write _ FloatText.serdeJson m).length ≤ 2 ^ 63 - 1

end Spec

section
attribute [local instance] FloatText.serdeJson
variable [LawfulExt]

theorem num_reread {f : F64} (hf : f.Finite) : Gram.Num (FloatText.print f) (.float (reread f)) := by
  obtain ⟨s, e, h1, _, h3, _⟩ := Double.C101_text f hf
  obtain ⟨g, h4, _⟩ := Double.C103_read f hf
  have e : reread f = g := by simp [reread, h4]
  rw [e]
  exact Double.num_of_literal h1 h3 h4

theorem reread_tame {f : F64} (h : Tame f) : reread f = f := by
  have h1 := Double.C102_survives_partial f h
  have h2 := num_reread h.1
  have a := Text.parseNum_complete h1 (r := []) (by simp [Text.NumEnd])
  have b := Text.parseNum_complete h2 (r := []) (by simp [Text.NumEnd])
  rw [a] at b
  simpa using b.symm

/-- C105: a JSON value with finite doubles is printed as a text that is accepted and denotes the same value, but for its
doubles, each of which is what its own text is read as. -/
theorem C105_text (j : Json) (hd : nest j ≤ 127) (hi : IntsFit j) (hf : Floats F64.Finite j) :
    Text.parse (Text.print j) = some (mapFloats reread j) :=
  parse_print_as reread hd hi (floats_mono (fun _ h => num_reread h) hf)

/-- C105: a wire-representable message with whatever finite doubles in its free-form data is read back, never rejected:
what arrives is what was sent (up to the documented normalisation), each double in it being what its text is read as. -/
theorem C105_wire (m : Message) (hw : WireOk m) (hs : Sendable m) (rest : Bytes) (br : Bool) :
    ∃ m', readMsg (⟨write m ++ rest, br⟩ : Flat) = .item m' ⟨rest, br⟩ ∧ m'.enc = mapFloats reread m.norm.enc := by
  obtain ⟨m', h1, h2⟩ := dec_mapFloats reread (C12_tree m hw)
  refine ⟨m', ?_, h2⟩
  rw [readMsg, readText_write m hs.size]
  simp only [msgText, C105_text _ hs.nest hs.ints hs.finite, Option.bind_some, h1]

/-- C105: so does a stream of messages. -/
theorem C105_stream (ms : List Message) (h : ∀ m ∈ ms, WireOk m ∧ Sendable m) :
    ∃ ms', readAll (⟨ms.flatMap write, false⟩ : Flat) = (ms', .eof) ∧
      ms'.map Message.enc = ms.map fun m => mapFloats reread m.norm.enc := by
  induction ms with
  | nil => exact ⟨[], by rw [List.flatMap_nil, readAll_eq, readMsg_nil.1], rfl⟩
  | cons m ms ih =>
    obtain ⟨ms', h1, h2⟩ := ih (fun x hx => h x (List.mem_cons_of_mem _ hx))
    obtain ⟨m', h3, h4⟩ := C105_wire m (h m (by simp)).1 (h m (by simp)).2 (ms.flatMap write) false
    refine ⟨m' :: ms', ?_, by simp [h2, h4]⟩
    rw [List.flatMap_cons, readAll_eq, h3]
    simp [h1]

/-- C105: exactly the message, if its doubles are written with few digits. -/
theorem C105_tame (m : Message) (hw : WireOk m) (hs : Sendable m) (ht : Floats Tame m.enc) (rest : Bytes) (br : Bool) :
    readMsg (⟨write m ++ rest, br⟩ : Flat) = .item m.norm ⟨rest, br⟩ :=
  C12_wire m hw ⟨hs.nest, numbers_iff.2 ⟨hs.ints, floatsOk_of (floats_mono (fun f h => Double.C102_survives_partial f h) ht)⟩, hs.size⟩
    rest br

/-- C105: whatever message was read from whatever input can be passed on, with no further condition but that the text
fits into memory and (C13) that it is no request without params; the next reader gets it with its doubles re-read. -/
theorem C105_relay (s s' : Flat) (m : Message) (h : readMsg s = .item m s') (hb : ∀ r, m = .request r → ¬ Spec.Bare r)
    (hs : (write m).length ≤ 2 ^ 63 - 1) (rest : Bytes) (br : Bool) :
    ∃ m', readMsg (⟨write m ++ rest, br⟩ : Flat) = .item m' ⟨rest, br⟩ ∧ m'.enc = mapFloats reread m.enc := by
  simp only [readMsg] at h
  split at h
  · split at h
    · cases h
    · rename_i m' hm
      cases h
      obtain ⟨j, hj, hm⟩ := Option.bind_eq_some_iff.1 hm
      have hfit := received_fits (d := 127) (by omega) hm (parse_fits hj)
      have hfl : Floats F64.Finite m.enc := by
        refine floats_dec hm ?_
        obtain ⟨_, _, _, _, hv, _⟩ := Text.parse_iff.1 hj
        exact val_floats Double.C103_finite hv
      have := C105_wire m (received_wireOk hm hb) ⟨hfit.1, hfit.2, hfl, hs⟩ rest br
      rwa [m.norm_plain (received_plain hm)] at this
  all_goals cases h

end

/-! ### Cases -/

section
attribute [local instance] Ext.sample FloatText.serdeJson

/-- A response with 9007199254740991.0 and 0.1 in its result. An example for bsp-server/src/message.rs:42-49. -/
def floatMessage : Message :=
  .response { id := .i32 3, result := some (.ofJson (.arr [.float Double.bigOdd, .float ⟨0x3fb999999999999a⟩])), error := none }

/-- What arrives. An example for bsp-server/src/message.rs:32-40. -/
def floatArrives : Message :=
  .response { id := .i32 3, result := some (.ofJson (.arr [.float ⟨0x433ffffffffffffe⟩, .float ⟨0x3fb999999999999a⟩])), error := none }

theorem floatMessage_ok : WireOk floatMessage ∧ Sendable floatMessage := by
  refine ⟨trivial, by decide +kernel, ?_, ?_, by decide +kernel⟩
  · simp [floatMessage, Message.enc, Message.members, Response.members, IntsFit, IntsFitMembers, IntsFitList,
      fld, skipNone, RequestId.enc, encI32, Value.ofJson, Value.json, canon]
  · simp [floatMessage, Message.enc, Message.members, Response.members, Floats, FloatsMembers, FloatsList,
      fld, skipNone, RequestId.enc, encI32, Value.ofJson, Value.json, canon]
    exact ⟨by decide +kernel, by decide +kernel⟩

/-- C105: the message that arrives can differ from the one that was sent: 9007199254740991.0 arrives as
9007199254740990.0, while 0.1 arrives as it is. -/
theorem C105_changes (rest : Bytes) (br : Bool) :
    readMsg (⟨write floatMessage ++ rest, br⟩ : Flat) = .item floatArrives ⟨rest, br⟩ ∧ floatArrives ≠ floatMessage := by
  refine ⟨?_, fun h => absurd (congrArg Message.enc h) (by decide)⟩
  rw [readMsg, readText_write floatMessage floatMessage_ok.2.size]
  have h1 : Text.parse (msgText floatMessage) = some floatArrives.enc := by decide +kernel
  have h2 : Message.dec floatArrives.enc = some floatArrives := by rfl
  simp only [h1, Option.bind_some, h2]

example : Text.parse (Text.print floatMessage.enc) = some (mapFloats reread floatMessage.enc) :=
  C105_text _ floatMessage_ok.2.nest floatMessage_ok.2.ints floatMessage_ok.2.finite

example (rest : Bytes) (br : Bool) :
    ∃ m', readMsg (⟨write floatMessage ++ rest, br⟩ : Flat) = .item m' ⟨rest, br⟩ ∧
      m'.enc = mapFloats reread floatMessage.norm.enc :=
  C105_wire _ floatMessage_ok.1 floatMessage_ok.2 rest br

/-- A response with 0.1 in its result. An example for bsp-server/src/message.rs:42-49. -/
def tameMessage : Message :=
  .response { id := .i32 4, result := some (.ofJson (.float ⟨0x3fb999999999999a⟩)), error := none }

theorem tameMessage_ok : WireOk tameMessage ∧ Sendable tameMessage ∧ Floats Tame tameMessage.enc := by
  refine ⟨trivial, ⟨by decide +kernel, ?_, ?_, by decide +kernel⟩, ?_⟩
  · simp [tameMessage, Message.enc, Message.members, Response.members, IntsFit, IntsFitMembers,
      fld, skipNone, RequestId.enc, encI32, Value.ofJson, Value.json, canon]
  · simp [tameMessage, Message.enc, Message.members, Response.members, Floats, FloatsMembers,
      fld, skipNone, RequestId.enc, encI32, Value.ofJson, Value.json, canon]
    exact Double.tame_tenth.1
  · simp [tameMessage, Message.enc, Message.members, Response.members, Floats, FloatsMembers,
      fld, skipNone, RequestId.enc, encI32, Value.ofJson, Value.json, canon]
    exact Double.tame_tenth

example (rest : Bytes) (br : Bool) :
    readMsg (⟨write tameMessage ++ rest, br⟩ : Flat) = .item tameMessage.norm ⟨rest, br⟩ :=
  C105_tame _ tameMessage_ok.1 tameMessage_ok.2.1 tameMessage_ok.2.2 rest br

example : ∃ ms', readAll (⟨[floatMessage, tameMessage].flatMap write, false⟩ : Flat) = (ms', .eof) ∧
    ms'.map Message.enc = [floatMessage, tameMessage].map fun m => mapFloats reread m.norm.enc :=
  C105_stream _ (by
    intro m hm
    rcases List.mem_cons.1 hm with rfl | hm
    · exact floatMessage_ok
    · rw [List.mem_singleton.1 hm]; exact ⟨tameMessage_ok.1, tameMessage_ok.2.1⟩)

/-- What arrived is passed on. -/
example (rest : Bytes) (br : Bool) :
    ∃ m', readMsg (⟨write floatArrives ++ rest, br⟩ : Flat) = .item m' ⟨rest, br⟩ ∧
      m'.enc = mapFloats reread floatArrives.enc :=
  C105_relay _ _ _ (C105_changes [] false).1 (by intro r h; cases h) (by decide +kernel) rest br

end
end Bsp
