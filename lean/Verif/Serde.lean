/-
What `#[derive(Serialize, Deserialize)]` generates (serde 1.0.136, serde_derive 1.0.136) for structs, and
the primitive (de)serialisers, on JSON trees.  Errors are not distinguished: a failing
deserialiser returns `none`.
-/
import Verif.Json

namespace Bsp
open Json

/-! ### External data types -/

/-- Parameters: the `url` crate (`lsp_types::Url`).
`parseUrl` is `Url::parse` (which serde uses to deserialise), `urlStr` is `Url::as_str`
(which serde uses to serialise). bt_identifier.rs:6, initialize_params.rs:32. -/
class Ext where
  Url : Type
  urlStr : Url → String
  parseUrl : String → Option Url

/-- What the round-trip theorems assume of URLs: a URL is read back from its own text.
A hypothesis (instance argument) of the theorems that use it.
Of the fields of type `Url`, e.g. bsp-types/src/bt_sources.rs:90. -/
class LawfulExt extends Ext where
  parse_str : ∀ u : Url, parseUrl (urlStr u) = some u

/-- A concrete instance used in examples: URLs are the non-empty strings. Not in /repo. -/
@[reducible] def Ext.sample : LawfulExt where
  Url := { s : String // s ≠ "" }
  urlStr u := u.1
  parseUrl s := if h : s ≠ "" then some ⟨s, h⟩ else none
  parse_str u := by simp [u.2]

/-! ### Primitive deserialisers -/

/-- `String::deserialize`. Fields of type `String`, e.g. bsp-server/src/response.rs:19. -/
def decStr : Json → Option String
  | .str s => some s
  | _ => none

/-- `bool::deserialize`. Fields of type `bool`, e.g. bsp-types/src/bt_capabilities.rs:8. -/
def decBool : Json → Option Bool
  | .bool b => some b
  | _ => none

/-- `i32::deserialize`: integers in range only; a float literal is rejected, even an integral one.
E.g. bsp-server/src/request/id.rs:11, response.rs:18. -/
def decI32 : Json → Option Int32
  | .int i => if -(2 ^ 31) ≤ i ∧ i < 2 ^ 31 then some (Int32.ofInt i) else none
  | _ => none

/-- `u32::deserialize`. Fields of type `u32`, e.g. bsp-types/src/task/progress.rs:15. -/
def decU32 : Json → Option UInt32
  | .int i => if 0 ≤ i ∧ i < 2 ^ 32 then some (UInt32.ofNat i.toNat) else none
  | _ => none

/-- `usize::deserialize` on a 64-bit platform.
Fields of type `usize`, e.g. bsp-types/src/bt_compile.rs:83. -/
def decUsize : Json → Option UInt64
  | .int i => if 0 ≤ i ∧ i < 2 ^ 64 then some (UInt64.ofNat i.toNat) else none
  | _ => none

/-- Serialisation of the integer types. E.g. bsp-server/src/request/id.rs:11. -/
def encI32 (x : Int32) : Json := .int x.toInt
/-- Fields of type `u32`, e.g. bsp-types/src/task/start.rs:14. -/
def encU32 (x : UInt32) : Json := .int x.toNat
/-- Fields of type `usize`, e.g. bsp-types/src/bt_compile.rs:83. -/
def encUsize (x : UInt64) : Json := .int x.toNat

/-- `serde_json::Value::deserialize`. E.g. bsp-server/src/response.rs:11. -/
def decValue (j : Json) : Option Value := some (Value.ofJson j)

/-- `Option::<T>::deserialize`: null is `None`. The `Option` fields, e.g. bsp-types/src/initialize_result.rs:19. -/
def decOpt (dec : Json → Option α) : Json → Option (Option α)
  | .null => some none
  | j => (dec j).map some

/-- Serialisation of an `Option` that is not skipped: `None` is null.
The `Option` fields, e.g. bsp-types/src/initialize_result.rs:19. -/
def encOpt (enc : α → Json) : Option α → Json
  | none => .null
  | some x => enc x

/-- `Vec::<T>::deserialize`: an array, every element decodes. The `Vec` fields, e.g. bsp-types/src/task/id.rs:17. -/
def decList (dec : Json → Option α) : Json → Option (List α)
  | .arr xs => xs.mapM dec
  | _ => none

/-- Serialisation of a `Vec`. The `Vec` fields, e.g. bsp-types/src/task/id.rs:17. -/
def encList (enc : α → Json) (xs : List α) : Json := .arr (xs.map enc)

/-- `Url::deserialize` (url crate, feature serde): a string accepted by `Url::parse`.
The `Url` fields, e.g. bsp-types/src/bt_sources.rs:90. -/
def decUrl [Ext] : Json → Option Ext.Url
  | .str s => Ext.parseUrl s
  | _ => none

/-- `Url::serialize`. The `Url` fields, e.g. bsp-types/src/bt_sources.rs:90. -/
def encUrl [Ext] (u : Ext.Url) : Json := .str (Ext.urlStr u)

/-! ### Derived struct deserialisation -/

/-- Where a derived `visit_map` / `visit_seq` takes the fields from.
Of the `derive(Deserialize)` of bsp-types/src and bsp-server/src/response.rs:4-22. -/
inductive Src where
  | map (ms : Members)
  | seq (xs : List Json)

/-- The members named `k`.
Of the `derive(Deserialize)` of bsp-types/src and bsp-server/src/response.rs:4-22. -/
def named (k : String) (ms : Members) : Members := ms.filter (fun m => m.1 == k)

/-- Some known field occurs twice (derived `visit_map`: `duplicate_field` error).
Of the `derive(Deserialize)` of bsp-types/src and bsp-server/src/response.rs:4-22. -/
def dupKnown (fields : List String) (ms : Members) : Bool :=
  fields.any (fun k => 1 < (named k ms).length)

/-- Entry of a derived struct deserialiser (`deserialize_struct` of `serde_json::Value` and of
serde's `Content`): objects go to `visit_map` (which rejects duplicate known fields and ignores
unknown ones), arrays to `visit_seq` followed by a check that no element is left over, anything
else is an error.  Simplification: the duplicate and left-over checks are made first, which only
changes the text of the error.
Of the `derive(Deserialize)` of bsp-types/src and bsp-server/src/response.rs:4-22. -/
def structSrc (fields : List String) : Json → Option Src
  | .obj ms => if dupKnown fields ms then none else some (.map ms)
  | .arr xs => if fields.length < xs.length then none else some (.seq xs)
  | _ => none

/-- The tree for field number `i` with wire name `k`.
Of the `derive(Deserialize)` of bsp-types/src and bsp-server/src/response.rs:4-22. -/
def Src.get (s : Src) (i : Nat) (k : String) : Option Json :=
  match s with
  | .map ms => ms.lookup k
  | .seq xs => xs[i]?

/-- A field without default whose type is not `Option`: missing is an error.
Of the `derive(Deserialize)` of bsp-types/src and bsp-server/src/response.rs:4-22. -/
def Src.req (s : Src) (i : Nat) (k : String) (dec : Json → Option α) : Option α :=
  (s.get i k).bind dec

/-- A field of type `Option<T>` without `#[serde(default)]`: missing is `None` in an object
(`missing_field`), but an error in an array (`invalid_length`).
Of the `derive(Deserialize)` of bsp-types/src and bsp-server/src/response.rs:4-22. -/
def Src.opt (s : Src) (i : Nat) (k : String) (dec : Json → Option α) : Option (Option α) :=
  match s.get i k with
  | some j => decOpt dec j
  | none => match s with
    | .map _ => some none
    | .seq _ => none

/-- A field with `#[serde(default)]` (on the field or on the struct): missing is the default.
Of the `derive(Deserialize)` of bsp-types/src and bsp-server/src/response.rs:4-22. -/
def Src.dflt (s : Src) (i : Nat) (k : String) (d : α) (dec : Json → Option α) : Option α :=
  match s.get i k with
  | some j => dec j
  | none => some d

/-! ### Derived struct serialisation -/

/-- A member that is always written. E.g. bsp-types/src/bt_sources.rs:90. -/
def fld (k : String) (j : Json) : Members := [(k, j)]

/-- `skip_serializing_if = "Option::is_none"`. E.g. bsp-server/src/response.rs:10. -/
def skipNone (k : String) (enc : α → Json) : Option α → Members
  | none => []
  | some x => [(k, enc x)]

/-- `skip_serializing_if = <predicate>`, `c` being the value of the predicate.
E.g. bsp-types/src/task/id.rs:16. -/
def skipIf (c : Bool) (k : String) (j : Json) : Members := if c then [] else [(k, j)]

/-! ### Lemmas -/

theorem bind_of_some {o : Option α} {v : α} {f : α → Option β} (h : o = some v) : o.bind f = f v := by
  rw [h]; rfl

theorem lookupLast_append (k : String) (a b : Members) :
    lookupLast k (a ++ b) = (lookupLast k b).or (lookupLast k a) := by
  induction a with
  | nil => simp [lookupLast]
  | cons m a ih =>
    obtain ⟨k', v⟩ := m
    simp [lookupLast, ih, Option.or_assoc]

theorem lookupLast_fld (k k' : String) (j : Json) :
    lookupLast k (fld k' j) = if k = k' then some j else none := by
  simp [fld, lookupLast]

theorem lookupLast_skipNone (k k' : String) (enc : α → Json) (o : Option α) :
    lookupLast k (skipNone k' enc o) = if k = k' then o.map enc else none := by
  cases o <;> simp [skipNone, lookupLast]

theorem lookupLast_skipIf (k k' : String) (c : Bool) (j : Json) :
    lookupLast k (skipIf c k' j) = if k = k' then (if c then none else some j) else none := by
  cases c <;> simp [skipIf, lookupLast]

theorem skipNone_mem (k k' : String) (j : Json) (enc : α → Json) (o : Option α) :
    (k, j) ∈ skipNone k' enc o ↔ k = k' ∧ o.map enc = some j := by
  cases o <;> simp [skipNone, eq_comm]

theorem skipIf_mem (k k' : String) (j j' : Json) (c : Bool) :
    (k, j) ∈ skipIf c k' j' ↔ k = k' ∧ c = false ∧ j = j' := by
  cases c <;> simp [skipIf]

theorem named_nil_of_lt {k : String} {ms : Members} (h : ∀ m ∈ ms, k < m.1) : named k ms = [] := by
  simp only [named, List.filter_eq_nil_iff]
  intro m hm
  have := h m hm
  simp only [beq_iff_eq]
  intro e
  subst e
  exact absurd this (by grind)

theorem named_length_le_one {k : String} {ms : Members} (h : sortedKeys ms = true) :
    (named k ms).length ≤ 1 := by
  induction ms with
  | nil => simp [named]
  | cons m ms ih =>
    obtain ⟨k', v⟩ := m
    by_cases e : k' = k
    · subst e
      have := named_nil_of_lt (sortedKeys_lt h)
      simp only [named] at this ⊢
      simp [this]
    · have := ih (sortedKeys_tail h)
      simpa [named, e] using this

theorem dupKnown_sorted (fields : List String) {ms : Members} (h : sortedKeys ms = true) :
    dupKnown fields ms = false := by
  simp only [dupKnown, List.any_eq_false, decide_eq_true_eq, Nat.not_lt]
  exact fun k _ => named_length_le_one h

theorem structSrc_canon_obj (fields : List String) (ms : Members) :
    structSrc fields (canon (.obj ms)) = some (.map (canonMembers ms [])) := by
  simp only [canon, structSrc, dupKnown_sorted fields (isValue_canonMembers ms [] rfl rfl).1]
  rfl

theorem lookup_canon (k : String) (ms : Members) :
    List.lookup k (canonMembers ms []) = (lookupLast k ms).map canon := by
  simp [lookup_canonMembers]

theorem req_canon {k : String} {ms : Members} {j : Json} {dec : Json → Option α} {v : α} (i : Nat)
    (h : lookupLast k ms = some j) (hd : dec (canon j) = some v) :
    (Src.map (canonMembers ms [])).req i k dec = some v := by
  simp [Src.req, Src.get, lookup_canon, h, hd]

theorem decOpt_of_ne {dec : Json → Option α} {j : Json} (h : j ≠ .null) :
    decOpt dec j = (dec j).map some := by
  cases j <;> simp_all [decOpt]

theorem opt_canon_none {k : String} {ms : Members} {dec : Json → Option α} (i : Nat)
    (h : lookupLast k ms = none) :
    (Src.map (canonMembers ms [])).opt i k dec = some none := by
  simp [Src.opt, Src.get, lookup_canon, h]

theorem opt_canon_some {k : String} {ms : Members} {j : Json} {dec : Json → Option α}
    {v : Option α} (i : Nat) (h : lookupLast k ms = some j) (hd : decOpt dec (canon j) = some v) :
    (Src.map (canonMembers ms [])).opt i k dec = some v := by
  simp [Src.opt, Src.get, lookup_canon, h, hd]

/-- Round trip of an optional field written with `skip_serializing_if = "Option::is_none"`. -/
theorem opt_canon_skip {k : String} {ms : Members} {enc : α → Json} {dec : Json → Option α}
    {o : Option α} {n : Option α → Option α} (i : Nat) (h : lookupLast k ms = o.map enc)
    (hn : n none = none) (hd : ∀ x, decOpt dec (canon (enc x)) = some (n (some x))) :
    (Src.map (canonMembers ms [])).opt i k dec = some (n o) := by
  cases o with
  | none => simp [Src.opt, Src.get, lookup_canon, h, hn]
  | some x => simp [Src.opt, Src.get, lookup_canon, h, hd]

/-- Round trip of an optional field that is always written. -/
theorem opt_canon_keep {k : String} {ms : Members} {enc : α → Json} {dec : Json → Option α}
    {o : Option α} {n : Option α → Option α} (i : Nat) (h : lookupLast k ms = some (encOpt enc o))
    (hn : n none = none) (hd : ∀ x, decOpt dec (canon (enc x)) = some (n (some x))) :
    (Src.map (canonMembers ms [])).opt i k dec = some (n o) := by
  cases o with
  | none => simp [Src.opt, Src.get, lookup_canon, h, hn, encOpt, canon, decOpt]
  | some x => simp [Src.opt, Src.get, lookup_canon, h, hd, encOpt]

/-- Round trip of a defaulted field. -/
theorem dflt_canon {k : String} {ms : Members} {o : Option Json} {dec : Json → Option α}
    {v d : α} (i : Nat) (h : lookupLast k ms = o) (hn : o = none → d = v)
    (hd : ∀ j, o = some j → dec (canon j) = some v) :
    (Src.map (canonMembers ms [])).dflt i k d dec = some v := by
  cases o with
  | none => simp [Src.dflt, Src.get, lookup_canon, h, hn]
  | some x => simp [Src.dflt, Src.get, lookup_canon, h, hd]

@[simp] theorem canon_str (s : String) : canon (.str s) = .str s := by simp [canon]
@[simp] theorem canon_int (i : Int) : canon (.int i) = .int i := by simp [canon]
@[simp] theorem canon_bool (b : Bool) : canon (.bool b) = .bool b := by simp [canon]
@[simp] theorem canon_null : canon .null = .null := by simp [canon]
@[simp] theorem canon_arr (xs : List Json) : canon (.arr xs) = .arr (xs.map canon) := by
  simp [canon]

theorem dec_str (s : String) : decStr (canon (.str s)) = some s := by simp [decStr]
theorem dec_bool (b : Bool) : decBool (canon (.bool b)) = some b := by simp [decBool]
theorem dec_u32 (x : UInt32) : decU32 (canon (encU32 x)) = some x := by
  have := x.toNat_lt
  simp [decU32, encU32]; omega
theorem dec_usize (x : UInt64) : decUsize (canon (encUsize x)) = some x := by
  have := x.toNat_lt
  simp [decUsize, encUsize]; omega
theorem dec_i32 (x : Int32) : decI32 (canon (encI32 x)) = some x := by
  have h1 := x.le_toInt
  have h2 := x.toInt_lt
  have : -(2:Int) ^ 31 ≤ x.toInt ∧ x.toInt < 2 ^ 31 := ⟨by simpa using h1, by simpa using h2⟩
  simp only [decI32, encI32, canon_int]
  rw [if_pos this]
  simp
theorem dec_value (v : Value) : decValue (canon v.json) = some v := by simp [decValue]
theorem dec_url [LawfulExt] (u : Ext.Url) : decUrl (canon (encUrl u)) = some u := by
  simp [decUrl, encUrl, LawfulExt.parse_str]

theorem dec_list {enc : α → Json} {dec : Json → Option α} {n : α → α}
    (h : ∀ x, dec (canon (enc x)) = some (n x)) (xs : List α) :
    decList dec (canon (encList enc xs)) = some (xs.map n) := by
  simp only [encList, canon_arr, decList]
  induction xs with
  | nil => rfl
  | cons x xs ih => simp only [List.map_cons, List.mapM_cons, h, ih]; rfl

theorem dec_list_id {enc : α → Json} {dec : Json → Option α}
    (h : ∀ x, dec (canon (enc x)) = some x) (xs : List α) :
    decList dec (canon (encList enc xs)) = some xs := by
  simpa using dec_list (n := id) h xs

theorem decOpt_canon {enc : α → Json} {dec : Json → Option α} {n : α → α}
    (hne : ∀ x, canon (enc x) ≠ .null) (h : ∀ x, dec (canon (enc x)) = some (n x)) (x : α) :
    decOpt dec (canon (enc x)) = some (Option.map n (some x)) := by
  rw [decOpt_of_ne (hne x), h]; rfl

theorem canon_obj_ne_null (ms : Members) : canon (.obj ms) ≠ .null := by simp [canon]

/-- `None` for an absent or null value: what is left of an `Option<Value>` after the wire.
E.g. of bsp-server/src/response.rs:11, 21. -/
def normData : Option Value → Option Value
  | none => none
  | some v => if v.isNull then none else some v

theorem decOpt_value (v : Value) : decOpt decValue (canon v.json) = some (normData (some v)) := by
  by_cases h : v.json = .null
  · simp [h, decOpt, normData, Value.isNull]
  · simp [decOpt_of_ne h, normData, Value.isNull, h, decValue]

/-! ### Congruence: only the known members matter -/

/-- `a` and `b` have the same members (in the same relative order) for every name in `fs`.
Proof helper for derived deserialisers such as bsp-server/src/response.rs:4. -/
def SameOn (fs : List String) (a b : Members) : Prop := ∀ k ∈ fs, named k a = named k b

theorem lookup_eq_named (k : String) (ms : Members) :
    List.lookup k ms = (named k ms).head?.map (·.2) := by
  induction ms with
  | nil => rfl
  | cons m ms ih =>
    obtain ⟨k', v⟩ := m
    rw [lookup_cons']
    by_cases e : k = k'
    · simp [named, e]
    · have e' : ¬ k' = k := fun h => e h.symm
      simp [e, ih, named, e']

theorem SameOn.lookup {fs : List String} {a b : Members} (h : SameOn fs a b) {k : String}
    (hk : k ∈ fs) : List.lookup k a = List.lookup k b := by
  rw [lookup_eq_named, lookup_eq_named, h k hk]

theorem SameOn.dup {fs : List String} {a b : Members} (h : SameOn fs a b) :
    dupKnown fs a = dupKnown fs b := by
  unfold dupKnown
  rw [Bool.eq_iff_iff]
  simp only [List.any_eq_true, decide_eq_true_eq]
  constructor <;> rintro ⟨k, hk, h'⟩
  · exact ⟨k, hk, by rwa [← h k hk]⟩
  · exact ⟨k, hk, by rwa [h k hk]⟩

theorem SameOn.symm {fs : List String} {a b : Members} (h : SameOn fs a b) : SameOn fs b a :=
  fun k hk => (h k hk).symm

theorem lookup_none_iff (k : String) (ms : Members) :
    List.lookup k ms = none ↔ named k ms = [] := by
  rw [lookup_eq_named]
  cases named k ms <;> simp

theorem dupKnown_cons (fs : List String) (k : String) (d : Json) {ms : Members}
    (h : List.lookup k ms = none) : dupKnown fs ((k, d) :: ms) = dupKnown fs ms := by
  unfold dupKnown
  rw [Bool.eq_iff_iff]
  simp only [List.any_eq_true, decide_eq_true_eq]
  have hk := (lookup_none_iff k ms).mp h
  constructor <;> rintro ⟨k', hk', h'⟩
  · refine ⟨k', hk', ?_⟩
    by_cases e : k = k'
    · subst e
      simp only [named] at hk h'
      simp [hk] at h'
    · simpa [named, e] using h'
  · refine ⟨k', hk', ?_⟩
    by_cases e : k = k'
    · subst e; rw [hk] at h'; simp at h'
    · simpa [named, e] using h'

end Bsp
