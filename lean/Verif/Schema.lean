/-
What the payload types accept and what they make of it, said once for all types: a small language of
schemas, which trees conform to a schema, and what is left of a conforming tree.  Nothing here refers to
the decoders; that these do exactly this is proved in Verif/SchemaTable.lean.
-/
import Verif.SpecLemmas
import Verif.Keeps

set_option linter.unusedSectionVars false

namespace Bsp
namespace Spec
open Json

/-- What the absence of a member means.
Specification of the fields of the types of bsp-types/src/lib.rs:1-56. -/
inductive Absent where
  /-- an error -/
  | required
  /-- as if it were null; in the positional form it is an error -/
  | optional
  /-- as if it were this -/
  | default (j : Json)

mutual
/-- Schemas of the types of bsp-types/src/lib.rs:1-56. -/
inductive Ty where
  | str
  | bool
  /-- integers from `lo` up to but not including `hi` -/
  | int (lo hi : Int)
  /-- one of these integers -/
  | codes (cs : List Int)
  | url
  /-- any datum at all -/
  | any
  /-- a task data kind -/
  | kind
  /-- a build target tag -/
  | tag
  /-- a string or a 32-bit integer -/
  | numOrStr
  /-- null or this -/
  | opt (t : Ty)
  | list (t : Ty)
  | struct (fs : Fields)
/-- The members of an object: name, meaning of its absence, the value with which it is not written, schema.
Specification of the fields of the types of bsp-types/src/lib.rs:1-56. -/
inductive Fields where
  | nil
  | cons (name : String) (absent : Absent) (omitted : Option Json) (t : Ty) (rest : Fields)
end

/-- The build target tags that are written as a string (bsp-types/src/bt_tag.rs:9-38). -/
def unitTags : List String :=
  ["libary", "application", "test", "integration-test", "benchmark", "no-i-d-e", "manual"]

mutual
/-- Whether a tree conforms to a schema.  An object has each of its members at most once, others are ignored;
instead of an object the values of its members can be given in their order.
Specification of the decoders of the types of bsp-types/src/lib.rs:1-56. -/
def Conforms [Ext] : Ty → Json → Prop
  | .str, j => ∃ s, j = .str s
  | .bool, j => ∃ b, j = .bool b
  | .int lo hi, j => ∃ i, j = .int i ∧ lo ≤ i ∧ i < hi
  | .codes cs, j => ∃ i ∈ cs, j = .int i
  | .url, j => ∃ s u, j = .str s ∧ Ext.parseUrl s = some u
  | .any, _ => True
  | .kind, _ => True
  | .tag, j => (∃ s ∈ unitTags, j = .str s ∨ j = .obj [(s, .null)]) ∨ ∃ s, j = .obj [("custom", .str s)]
  | .numOrStr, j => (∃ s, j = .str s) ∨ ∃ i, j = .int i ∧ -2 ^ 31 ≤ i ∧ i < 2 ^ 31
  | .opt t, j => j = .null ∨ Conforms t j
  | .list t, j => ∃ xs, j = .arr xs ∧ ∀ x ∈ xs, Conforms t x
  | .struct fs, j => (∃ ms, j = .obj ms ∧ InMap fs ms) ∨ ∃ xs, j = .arr xs ∧ InSeq fs xs
/-- The members of an object conform. Specification, for bsp-types/src/lib.rs:1-56. -/
def InMap [Ext] : Fields → Members → Prop
  | .nil, _ => True
  | .cons k a _ t fs, ms => ((k ∉ keys ms ∧ a ≠ .required) ∨ ∃ j, Once k ms j ∧ Conforms t j) ∧ InMap fs ms
/-- The elements of a positional array conform. Specification, for bsp-types/src/lib.rs:1-56. -/
def InSeq [Ext] : Fields → List Json → Prop
  | .nil, xs => xs = []
  | .cons _ a _ _ fs, [] => (∃ d, a = .default d) ∧ InSeq fs []
  | .cons _ _ _ t fs, x :: xs => Conforms t x ∧ InSeq fs xs
end

/-- What stands for an absent member. Specification, for bsp-types/src/lib.rs:1-56. -/
def Absent.tree : Absent → Json
  | .default d => d
  | _ => .null

/-- A member, unless it has the value with which it is left out. Specification, for bsp-types/src/lib.rs:1-56. -/
def put (k : String) (o : Option Json) (j : Json) : Members := if o = some j then [] else [(k, j)]

mutual
/-- What is left of a conforming tree: unknown members and explicit defaults go, the known members are in order, objects
inside free-form data are sorted and without duplicates, a URL is as the `url` crate writes it.
Specification of decoding and encoding for bsp-types/src/lib.rs:1-56. -/
def clean [Ext] : Ty → Json → Json
  | .url, .str s => match Ext.parseUrl s with
    | some u => .str (Ext.urlStr u)
    | none => .str s
  | .any, j => canon j
  | .kind, .str s => .str s
  | .kind, _ => .null
  | .tag, .obj [(k, .null)] => .str k
  | .opt _, .null => .null
  | .opt t, j => clean t j
  | .list t, .arr xs => .arr (xs.map (clean t))
  | .struct fs, .obj ms => .obj (cleanMap fs ms)
  | .struct fs, .arr xs => .obj (cleanSeq fs xs)
  | _, j => j
/-- The members of an object. Specification, for bsp-types/src/lib.rs:1-56. -/
def cleanMap [Ext] : Fields → Members → Members
  | .nil, _ => []
  | .cons k a o t fs, ms => put k o (clean t ((ms.lookup k).getD a.tree)) ++ cleanMap fs ms
/-- The members given by position. Specification, for bsp-types/src/lib.rs:1-56. -/
def cleanSeq [Ext] : Fields → List Json → Members
  | .nil, _ => []
  | .cons k a o t fs, xs => put k o (clean t (xs.head?.getD a.tree)) ++ cleanSeq fs xs.tail
end

/-- The names of the members. Specification, for bsp-types/src/lib.rs:1-56. -/
def Fields.names : Fields → List String
  | .nil => []
  | .cons k _ _ _ fs => k :: fs.names

end Spec

/-! ### Decoders that do exactly this -/

open Json Spec

/-- `dec` accepts exactly what conforms to `t`, and `enc` writes what is left of it.
About the types of bsp-types/src/lib.rs:1-56. -/
def Follows [Ext] (t : Ty) (dec : Json → Option α) (enc : α → Json) : Prop :=
  (∀ j, (dec j).isSome = true ↔ Conforms t j) ∧ ∀ j x, dec j = some x → enc x = clean t j

section
variable [Ext]

theorem follows_str : Follows .str decStr Json.str := by
  constructor
  · intro j; cases j <;> simp [decStr, Conforms]
  · intro j x h; cases j <;> simp [decStr] at h; subst h; simp [clean]

theorem follows_bool : Follows .bool decBool Json.bool := by
  constructor
  · intro j; cases j <;> simp [decBool, Conforms]
  · intro j x h; cases j <;> simp [decBool] at h; subst h; simp [clean]

theorem follows_u32 : Follows (.int 0 (2 ^ 32)) decU32 encU32 := by
  constructor
  · intro j; cases j <;> simp [decU32, Conforms]
  · intro j x h; cases j <;> simp [decU32] at h
    obtain ⟨h1, rfl⟩ := h
    simp only [encU32, clean]
    simp only [UInt32.toNat_ofNat']
    congr 1
    omega

theorem follows_usize : Follows (.int 0 (2 ^ 64)) decUsize encUsize := by
  constructor
  · intro j; cases j <;> simp [decUsize, Conforms]
  · intro j x h; cases j <;> simp [decUsize] at h
    obtain ⟨h1, rfl⟩ := h
    simp only [encUsize, clean]
    simp only [UInt64.toNat_ofNat']
    congr 1
    omega

theorem follows_i32 : Follows (.int (-2 ^ 31) (2 ^ 31)) decI32 encI32 := by
  constructor
  · intro j; cases j <;> simp [decI32, Conforms]
  · intro j x h
    obtain ⟨i, rfl, h1, rfl⟩ := (decI32_iff j x).1 h
    simp only [encI32, clean]
    congr 1
    exact Int32.toInt_ofInt_of_le (by simpa using h1.1) (by simpa using h1.2)

theorem follows_value : Follows .any decValue Value.json := by
  constructor
  · intro j; simp [decValue, Conforms]
  · intro j x h; cases h; simp only [clean]; rfl

theorem follows_url : Follows .url decUrl encUrl := by
  constructor
  · intro j; cases j <;> simp [decUrl, Conforms, Option.isSome_iff_exists]
  · intro j x h; cases j <;> simp [decUrl] at h
    simp [clean, encUrl, h]

theorem TaskDataKind.enc_ofString (s : String) : (TaskDataKind.ofString s).enc = .str s := by
  simp only [TaskDataKind.ofString]
  repeat' split
  all_goals simp [TaskDataKind.enc, *]

theorem follows_kind : Follows .kind TaskDataKind.dec TaskDataKind.enc := by
  constructor
  · intro j; cases j <;> simp [TaskDataKind.dec, decStr, Conforms]
  · intro j x h
    cases j <;> simp [TaskDataKind.dec, decStr] at h <;> subst h <;> simp [clean, TaskDataKind.enc]
    rename_i s
    exact TaskDataKind.enc_ofString s

theorem follows_messageType : Follows (.codes [1, 2, 3, 4]) MessageType.dec MessageType.enc := by
  constructor
  · intro j; cases j <;> simp [MessageType.dec, Conforms]
    repeat' split
    all_goals simp_all
  · intro j x h; cases j <;> simp [MessageType.dec] at h
    repeat' split at h
    all_goals cases h <;> (simp [clean, MessageType.enc, MessageType.code, *])

theorem follows_taskStatus : Follows (.codes [1, 2, 3]) TaskStatus.dec TaskStatus.enc := by
  constructor
  · intro j; cases j <;> simp [TaskStatus.dec, Conforms]
    repeat' split
    all_goals simp_all
  · intro j x h; cases j <;> simp [TaskStatus.dec] at h
    repeat' split at h
    all_goals cases h <;> (simp [clean, TaskStatus.enc, TaskStatus.code, *])

theorem follows_buildTargetEventKind :
    Follows (.codes [1, 2, 3]) BuildTargetEventKind.dec BuildTargetEventKind.enc := by
  constructor
  · intro j; cases j <;> simp [BuildTargetEventKind.dec, Conforms]
    repeat' split
    all_goals simp_all
  · intro j x h; cases j <;> simp [BuildTargetEventKind.dec] at h
    repeat' split at h
    all_goals cases h <;> (simp [clean, BuildTargetEventKind.enc, BuildTargetEventKind.code, *])

theorem follows_sourceKind : Follows (.codes [1, 2]) SourceKind.dec SourceKind.enc := by
  constructor
  · intro j; cases j <;> simp [SourceKind.dec, Conforms]
    repeat' split
    all_goals simp_all
  · intro j x h; cases j <;> simp [SourceKind.dec] at h
    repeat' split at h
    all_goals cases h <;> (simp [clean, SourceKind.enc, SourceKind.code, *])

theorem follows_numberOrString : Follows .numOrStr NumberOrString.dec NumberOrString.enc := by
  constructor
  · intro j
    have := follows_i32.1 j
    simp only [NumberOrString.dec]
    cases h : decI32 j with
    | some n =>
      simp only [h, Option.isSome_some, true_iff] at this
      simpa [Conforms] using Or.inr this
    | none =>
      simp only [h, Option.isSome_none, Bool.false_eq_true, false_iff] at this
      simp only [Option.isSome_map, follows_str.1 j]
      simp only [Conforms] at this ⊢
      exact ⟨Or.inl, fun h => h.resolve_right this⟩
  · intro j x hx
    simp only [NumberOrString.dec] at hx
    cases h : decI32 j with
    | some n =>
      rw [h] at hx; cases hx
      have := follows_i32.2 j n h
      cases j <;> simp [decI32] at h
      simpa [NumberOrString.enc, clean] using this
    | none =>
      rw [h] at hx
      cases j <;> simp [decStr] at hx
      subst hx; simp [NumberOrString.enc, clean]

theorem unitVariant_isSome (s : String) : (BuildTargetTag.unitVariant s).isSome = true ↔ s ∈ unitTags := by
  simp only [BuildTargetTag.unitVariant, unitTags, List.mem_cons, List.not_mem_nil, or_false]
  repeat' split
  all_goals simp_all

theorem enc_unitVariant {s : String} {x : BuildTargetTag} (h : BuildTargetTag.unitVariant s = some x) :
    x.enc = .str s := by
  simp only [BuildTargetTag.unitVariant] at h
  repeat' split at h
  all_goals cases h <;> simp [BuildTargetTag.enc, *]

theorem follows_buildTargetTag : Follows .tag BuildTargetTag.dec BuildTargetTag.enc := by
  constructor
  · intro j
    cases j with
    | str s => simp [BuildTargetTag.dec, unitVariant_isSome, Conforms]
    | obj ms =>
      rcases ms with _ | ⟨⟨k, v⟩, _ | ⟨m, ms⟩⟩
      · simp [BuildTargetTag.dec, Conforms]
      · simp only [BuildTargetTag.dec]
        by_cases hk : k = "custom"
        · subst hk
          have : "custom" ∉ unitTags := by decide
          cases v <;> simp [decStr, Conforms, this]
        · cases v <;> simp [hk, Conforms, unitVariant_isSome]
      · simp [BuildTargetTag.dec, Conforms]
    | _ => simp [BuildTargetTag.dec, Conforms]
  · intro j x h
    cases j with
    | str s => simp only [BuildTargetTag.dec] at h; simp [enc_unitVariant h, clean]
    | obj ms =>
      rcases ms with _ | ⟨⟨k, v⟩, _ | ⟨m, ms⟩⟩
      · simp [BuildTargetTag.dec] at h
      · simp only [BuildTargetTag.dec] at h
        by_cases hk : k = "custom"
        · subst hk
          cases v <;> simp [decStr] at h
          subst h; simp [BuildTargetTag.enc, clean]
        · cases v <;> simp [hk] at h
          simp [enc_unitVariant h, clean]
      · simp [BuildTargetTag.dec] at h
    | _ => simp [BuildTargetTag.dec] at h

theorem clean_opt_ne {t : Ty} {j : Json} (h : j ≠ .null) : clean (.opt t) j = clean t j := by
  cases j <;> simp_all [clean]

theorem follows_opt {dec : Json → Option α} {enc : α → Json} (h : Follows t dec enc) :
    Follows (.opt t) (decOpt dec) (encOpt enc) := by
  constructor
  · intro j
    by_cases e : j = .null
    · subst e; simp [decOpt, Conforms]
    · simp [decOpt_of_ne e, Conforms, e, h.1 j]
  · intro j x hx
    by_cases e : j = .null
    · subst e; simp [decOpt] at hx; subst hx; simp [encOpt, clean]
    · simp only [decOpt_of_ne e, Option.map_eq_some_iff] at hx
      obtain ⟨y, hy, rfl⟩ := hx
      simp [encOpt, clean_opt_ne e, h.2 j y hy]

theorem mapM_isSome {f : α → Option β} (xs : List α) :
    (xs.mapM f).isSome = true ↔ ∀ x ∈ xs, (f x).isSome = true := by
  induction xs with
  | nil => simp
  | cons x xs ih =>
    simp only [List.mapM_cons, List.mem_cons, forall_eq_or_imp, ← ih]
    cases f x <;> cases xs.mapM f <;> simp

theorem mapM_some {f : α → Option β} {xs : List α} {ys : List β} (h : xs.mapM f = some ys)
    {g : β → γ} {c : α → γ} (hg : ∀ x y, f x = some y → g y = c x) : ys.map g = xs.map c := by
  induction xs generalizing ys with
  | nil => simp at h; subst h; rfl
  | cons x xs ih =>
    simp only [List.mapM_cons, Option.bind_eq_bind, Option.bind_eq_some_iff] at h
    obtain ⟨y, hy, zs, hz, e⟩ := h
    cases e
    simp [hg x y hy, ih hz]

theorem follows_list {dec : Json → Option α} {enc : α → Json} (h : Follows t dec enc) :
    Follows (.list t) (decList dec) (encList enc) := by
  constructor
  · intro j
    cases j <;> simp [decList, Conforms, mapM_isSome, h.1]
  · intro j x hx
    cases j <;> simp only [decList, reduceCtorEq] at hx
    simp only [encList, clean, mapM_some hx h.2]

/-! ### Structs -/

/-- Whether a member may be absent. About the types of bsp-types/src/lib.rs:1-56. -/
def MayBeAbsent : Absent → Src → Prop
  | .required, _ => False
  | .optional, .map _ => True
  | .optional, .seq _ => False
  | .default _, _ => True

/-- The member number `i` called `k` conforms. About the types of bsp-types/src/lib.rs:1-56. -/
def OkAt (s : Src) (i : Nat) (k : String) (a : Absent) (t : Ty) : Prop :=
  match s.get i k with
  | some j => Conforms t j
  | none => MayBeAbsent a s

/-- `r` is the decoded member number `i` called `k`. About the types of bsp-types/src/lib.rs:1-56. -/
def Got (s : Src) (i : Nat) (k : String) (a : Absent) (t : Ty) (r : Option α) (enc : α → Json) : Prop :=
  (r.isSome = true ↔ OkAt s i k a t) ∧ ∀ x, r = some x → enc x = clean t ((s.get i k).getD a.tree)

theorem Got.ok {s : Src} {r : Option α} {enc : α → Json} (h : Got s i k a t r enc) {x : α} (hx : r = some x) :
    OkAt s i k a t := h.1.1 (by rw [hx]; rfl)

theorem Got.some {s : Src} {r : Option α} {enc : α → Json} (h : Got s i k a t r enc) (ho : OkAt s i k a t) :
    ∃ x, r = some x := Option.isSome_iff_exists.1 (h.1.2 ho)

theorem got_req {dec : Json → Option α} {enc : α → Json} (h : Follows t dec enc) (s : Src) :
    Got s i k .required t (s.req i k dec) enc := by
  simp only [Got, OkAt, Src.req]
  cases s.get i k with
  | none => simp [MayBeAbsent]
  | some j => exact ⟨h.1 j, h.2 j⟩

theorem got_opt {dec : Json → Option α} {enc : α → Json} (h : Follows t dec enc) (s : Src) :
    Got s i k .optional (.opt t) (s.opt i k dec) (encOpt enc) := by
  simp only [Got, OkAt, Src.opt]
  cases s.get i k with
  | none => cases s <;> simp [MayBeAbsent, Absent.tree, clean, encOpt]
  | some j => exact ⟨(follows_opt h).1 j, (follows_opt h).2 j⟩

theorem got_dflt {dec : Json → Option α} {enc : α → Json} {d : α} {j : Json} (h : Follows t dec enc)
    (hd : enc d = clean t j) (s : Src) : Got s i k (.default j) t (s.dflt i k d dec) enc := by
  simp only [Got, OkAt, Src.dflt]
  cases s.get i k with
  | none => simp [MayBeAbsent, Absent.tree, hd]
  | some j => exact ⟨h.1 j, h.2 j⟩

/-- All members from number `i` on conform. About the types of bsp-types/src/lib.rs:1-56. -/
def AllOk : Fields → Nat → Src → Prop
  | .nil, _, _ => True
  | .cons k a _ t fs, i, s => OkAt s i k a t ∧ AllOk fs (i + 1) s

/-- What is left of the members from number `i` on. About the types of bsp-types/src/lib.rs:1-56. -/
def allClean : Fields → Nat → Src → Members
  | .nil, _, _ => []
  | .cons k a o t fs, i, s => put k o (clean t ((s.get i k).getD a.tree)) ++ allClean fs (i + 1) s

theorem inMap_once {fs : Fields} {ms : Members} (h : InMap fs ms) :
    ∀ k ∈ fs.names, (named k ms).length ≤ 1 := by
  intro k' hk'
  induction fs using Fields.rec (motive_1 := fun _ => True) with
  | nil => simp [Fields.names] at hk'
  | cons k a o t fs _ ih =>
    simp only [InMap] at h
    simp only [Fields.names, List.mem_cons] at hk'
    rcases hk' with rfl | hk'
    · rcases h.1 with ⟨h, _⟩ | ⟨j, h, _⟩
      · rw [(keys_named _ _).1 h]; simp
      · rw [(once_iff _ _ _).1 h]; simp
    · exact ih h.2 hk'
  | _ => trivial

theorem allOk_map (fs : Fields) (i : Nat) {ms : Members} (h : ∀ k ∈ fs.names, (named k ms).length ≤ 1) :
    AllOk fs i (.map ms) ↔ InMap fs ms := by
  induction fs using Fields.rec (motive_1 := fun _ => True) generalizing i with
  | nil => simp [AllOk, InMap]
  | cons k a o t fs _ ih =>
    have hk := h k (by simp [Fields.names])
    simp only [AllOk, InMap, ih (i + 1) (fun k' hk' => h k' (by simp [Fields.names, hk'])), OkAt, Src.get]
    refine and_congr_left fun _ => ?_
    cases hl : ms.lookup k with
    | none =>
      have hn := (keys_named k ms).2 ((lookup_none_iff k ms).1 hl)
      have ho : ¬ ∃ j, Spec.Once k ms j ∧ Conforms t j := by
        rintro ⟨j, h1, _⟩
        rw [((once_iff k ms j).1 h1).lookup] at hl; cases hl
      simp only [ho, or_false, hn, not_false_eq_true, true_and]
      cases a <;> simp [MayBeAbsent]
    | some j =>
      have hn : k ∈ keys ms := by
        apply Classical.byContradiction
        intro hn
        rw [(lookup_none_iff k ms).2 ((keys_named k ms).1 hn)] at hl; cases hl
      have ho := once_of_lookup hl hk
      simp only [hn, not_true_eq_false, false_and, false_or]
      constructor
      · intro hc; exact ⟨j, (once_iff k ms j).2 ho, hc⟩
      · rintro ⟨j', h1, hc⟩
        rw [((once_iff k ms j').1 h1).lookup] at hl; cases hl; exact hc
  | _ => trivial

theorem allOk_seq (fs : Fields) (i : Nat) (xs : List Json) :
    (AllOk fs i (.seq xs) ∧ xs.length ≤ i + fs.names.length) ↔ InSeq fs (xs.drop i) := by
  induction fs using Fields.rec (motive_1 := fun _ => True) generalizing i with
  | nil => simp [AllOk, InSeq, Fields.names]
  | cons k a o t fs _ ih =>
    have := ih (i + 1)
    simp only [Fields.names, List.length_cons, AllOk, OkAt, Src.get]
    rw [show i + (fs.names.length + 1) = i + 1 + fs.names.length by omega]
    rw [and_assoc, this]
    cases hx : xs[i]? with
    | none =>
      have hl : xs.length ≤ i := by simpa using hx
      rw [List.drop_eq_nil_of_le hl, List.drop_eq_nil_of_le (by omega)]
      simp only [InSeq]
      refine and_congr_left fun _ => ?_
      cases a <;> simp [MayBeAbsent]
    | some j =>
      obtain ⟨hl, rfl⟩ := List.getElem?_eq_some_iff.1 hx
      rw [List.drop_eq_getElem_cons hl]
      simp only [InSeq]
  | _ => trivial

theorem allClean_map (fs : Fields) (i : Nat) (ms : Members) : allClean fs i (.map ms) = cleanMap fs ms := by
  induction fs using Fields.rec (motive_1 := fun _ => True) generalizing i with
  | nil => simp [allClean, cleanMap]
  | cons k a o t fs _ ih => simp [allClean, cleanMap, ih, Src.get]
  | _ => trivial

theorem allClean_seq (fs : Fields) (i : Nat) (xs : List Json) :
    allClean fs i (.seq xs) = cleanSeq fs (xs.drop i) := by
  induction fs using Fields.rec (motive_1 := fun _ => True) generalizing i with
  | nil => simp [allClean, cleanSeq]
  | cons k a o t fs _ ih => simp [allClean, cleanSeq, ih, Src.get]
  | _ => trivial

theorem follows_struct {fs : Fields} {fields : List String} {dec : Json → Option α} {enc : α → Json}
    (hf : fs.names = fields)
    (h0 : ∀ j, structSrc fields j = none → dec j = none)
    (h1 : ∀ j s, structSrc fields j = some s → ((dec j).isSome = true ↔ AllOk fs 0 s))
    (h2 : ∀ j s x, structSrc fields j = some s → dec j = some x → enc x = .obj (allClean fs 0 s)) :
    Follows (.struct fs) dec enc := by
  subst hf
  have key : ∀ j, (∃ s, structSrc fs.names j = some s ∧ AllOk fs 0 s) ↔ Conforms (.struct fs) j := by
    intro j
    cases j with
    | obj ms =>
      simp only [structSrc, Conforms, Json.obj.injEq, exists_eq_left', reduceCtorEq, false_and, exists_false,
        or_false]
      by_cases hd : dupKnown fs.names ms = true
      · rw [if_pos hd]
        simp only [reduceCtorEq, false_and, exists_false, false_iff]
        intro h
        rw [dupKnown_false.2 (inMap_once h)] at hd; cases hd
      · rw [if_neg hd]
        have hd' : dupKnown fs.names ms = false := by simpa using hd
        rw [dupKnown_false] at hd'
        simp only [Option.some.injEq, exists_eq_left', allOk_map fs 0 hd']
    | arr xs =>
      simp only [structSrc, Conforms, Json.arr.injEq, exists_eq_left', reduceCtorEq, false_and, exists_false,
        false_or]
      have := allOk_seq fs 0 xs
      simp only [Nat.zero_add, List.drop_zero] at this
      rw [← this]
      by_cases hl : fs.names.length < xs.length
      · rw [if_pos hl]
        simp only [reduceCtorEq, false_and, exists_false, false_iff]
        omega
      · rw [if_neg hl]
        simp only [Option.some.injEq, exists_eq_left']
        exact ⟨fun h => ⟨h, by omega⟩, And.left⟩
    | _ => simp [structSrc, Conforms]
  constructor
  · intro j
    rw [← key j]
    cases hs : structSrc fs.names j with
    | none => simp [h0 j hs]
    | some s => simp [h1 j s hs]
  · intro j x hx
    cases hs : structSrc fs.names j with
    | none => rw [h0 j hs] at hx; cases hx
    | some s =>
      rw [h2 j s x hs hx]
      cases j with
      | obj ms =>
        simp only [structSrc] at hs
        split at hs <;> cases hs
        simp only [allClean_map, clean]
      | arr xs =>
        simp only [structSrc] at hs
        split at hs <;> cases hs
        simp only [allClean_seq, clean, List.drop_zero]
      | _ => simp [structSrc] at hs

theorem put_fld {j j' : Json} (h : j = j') : fld k j = put k none j' := by
  subst h; simp [fld, put]

theorem put_skipNone {enc : α → Json} {o : Option α} {j' : Json} (h : encOpt enc o = j')
    (hn : ∀ v, o = some v → enc v ≠ .null) : skipNone k enc o = put k (some .null) j' := by
  subst h
  cases o with
  | none => simp [skipNone, put, encOpt]
  | some v =>
    have := (hn v rfl).symm
    simp [skipNone, put, encOpt, this]

theorem put_skipIf {c : Bool} {j j' d : Json} (h : j = j') (hc : c = true ↔ d = j) :
    skipIf c k j = put k (some d) j' := by
  subst h
  simp only [skipIf, put, Option.some.injEq, hc]

theorem Value.json_ne_null {v : Value} {o : Option Value} (h : o ≠ some Value.null) (hv : o = some v) :
    v.json ≠ .null := by
  intro hn
  exact h (by rw [hv, (Value.isNull_iff v).1 (by simp [Value.isNull, hn])])

theorem str_empty {s : String} : (s == "") = true ↔ Json.str "" = Json.str s := by
  simp only [beq_iff_eq, Json.str.injEq]; exact eq_comm

theorem value_null_json {v : Value} : v.isNull = true ↔ Json.null = v.json := by
  simp only [Value.isNull, beq_iff_eq]; exact eq_comm

end
end Bsp
