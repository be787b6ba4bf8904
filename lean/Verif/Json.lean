/-
JSON trees.

`Json` is what the text layer delivers to serde: serde's buffered `Content` (serde 1.0.136,
`serde::__private::de::Content`), in which an object is the *ordered* list of its members and a
name may occur more than once.  `Value` is `serde_json::Value` (serde_json 1.0.79, feature
`preserve_order` off, see Cargo.lock: no `indexmap`), whose objects are `BTreeMap<String, Value>`:
sorted by name, names unique.
-/
namespace Bsp

/-- An IEEE-754 double, as an opaque bit pattern.  Only its text form is ever used
(serde_json `Number::Float`; Content::F64).
The floats inside the values that bsp-server/src/message.rs:37, 44 read and write. -/
structure F64 where
  bits : UInt64
deriving DecidableEq, Repr, Inhabited

/-- A JSON tree as delivered by the parser (serde `Content`).  Integers are `Content::U64/I64`.
What `serde_json::from_str` (bsp-server/src/message.rs:37) makes of a text. -/
inductive Json where
  | null
  | bool (b : Bool)
  | int (i : Int)
  | float (f : F64)
  | str (s : String)
  | arr (xs : List Json)
  | obj (ms : List (String × Json))
deriving Repr, Inhabited

/-- The members of an object, in the order of the text (bsp-server/src/message.rs:37). -/
abbrev Members := List (String × Json)

namespace Json

mutual
/-- Structural equality test (only used to run examples). Not in /repo. -/
def beq : Json → Json → Bool
  | .null, .null => true
  | .bool a, .bool b => a == b
  | .int a, .int b => a == b
  | .float a, .float b => a == b
  | .str a, .str b => a == b
  | .arr a, .arr b => beqList a b
  | .obj a, .obj b => beqMembers a b
  | _, _ => false
/-- Pointwise `beq` on lists. Not in /repo. -/
def beqList : List Json → List Json → Bool
  | [], [] => true
  | x :: xs, y :: ys => beq x y && beqList xs ys
  | _, _ => false
/-- Pointwise `beq` on member lists. Not in /repo. -/
def beqMembers : Members → Members → Bool
  | [], [] => true
  | (k, x) :: xs, (l, y) :: ys => k == l && beq x y && beqMembers xs ys
  | _, _ => false
end

mutual
theorem beq_iff : ∀ a b : Json, beq a b = true ↔ a = b
  | .null, b => by cases b <;> simp [beq]
  | .bool _, b => by cases b <;> simp [beq]
  | .int _, b => by cases b <;> simp [beq]
  | .float _, b => by cases b <;> simp [beq]
  | .str _, b => by cases b <;> simp [beq]
  | .arr xs, b => by cases b <;> simp [beq, beqList_iff xs]
  | .obj ms, b => by cases b <;> simp [beq, beqMembers_iff ms]
theorem beqList_iff : ∀ a b : List Json, beqList a b = true ↔ a = b
  | [], b => by cases b <;> simp [beqList]
  | x :: xs, b => by cases b <;> simp [beqList, beq_iff x, beqList_iff xs]
theorem beqMembers_iff : ∀ a b : Members, beqMembers a b = true ↔ a = b
  | [], b => by cases b <;> simp [beqMembers]
  | (k, x) :: xs, b => by
    rcases b with _ | ⟨⟨l, y⟩, ys⟩ <;> simp [beqMembers, beq_iff x, beqMembers_iff xs]
end

instance : DecidableEq Json := fun a b => decidable_of_iff _ (beq_iff a b)

/-! ### Conversion to `serde_json::Value` -/

/-- `BTreeMap::insert`: replace the value of an existing key, else insert in key order.
Rust compares `String`s by UTF-8 bytes, which is the order by code points used by Lean's `<`.
Inside the `serde_json::Value`s of bsp-server/src/request.rs:51, response.rs:11, 21. -/
def insertKV (k : String) (v : Json) : Members → Members
  | [] => [(k, v)]
  | (k', v') :: ms =>
    if k < k' then (k, v) :: (k', v') :: ms
    else if k = k' then (k, v) :: ms
    else (k', v') :: insertKV k v ms

mutual
/-- Conversion of a buffered tree to `serde_json::Value`
(`Value::deserialize`, serde_json value/de.rs `visit_map`: members are inserted one by one,
a later duplicate replaces an earlier one).  Used at request.rs:404,410; notification.rs:222. -/
def canon : Json → Json
  | .arr xs => .arr (canonList xs)
  | .obj ms => .obj (canonMembers ms [])
  | .null => .null
  | .bool b => .bool b
  | .int i => .int i
  | .float f => .float f
  | .str s => .str s
/-- `canon` on the elements of an array. As `canon`, bsp-server/src/response.rs:11, 28. -/
def canonList : List Json → List Json
  | [] => []
  | x :: xs => canon x :: canonList xs
/-- Insert the converted members one by one into `acc`.
As `canon`, bsp-server/src/response.rs:11, 28. -/
def canonMembers : Members → Members → Members
  | [], acc => acc
  | (k, v) :: ms, acc => canonMembers ms (insertKV k (canon v) acc)
end

/-- Names in strictly increasing order.
Of the `serde_json::Value`s of bsp-server/src/response.rs:11, 21. -/
def sortedKeys : Members → Bool
  | [] => true
  | [_] => true
  | (k, _) :: (k', v') :: ms => k < k' && sortedKeys ((k', v') :: ms)

mutual
/-- The invariant of `serde_json::Value`: objects are sorted by name without duplicates.
The type of bsp-server/src/response.rs:11, 21. -/
def isValue : Json → Bool
  | .arr xs => isValueList xs
  | .obj ms => sortedKeys ms && isValueMembers ms
  | _ => true
/-- `isValue` for all elements. The type of bsp-server/src/response.rs:11, 21. -/
def isValueList : List Json → Bool
  | [] => true
  | x :: xs => isValue x && isValueList xs
/-- `isValue` for all member values. The type of bsp-server/src/response.rs:11, 21. -/
def isValueMembers : Members → Bool
  | [] => true
  | (_, x) :: xs => isValue x && isValueMembers xs
end

/-- The value of the last member named `k`.
Specification of `serde_json::Value` objects, bsp-server/src/response.rs:11. -/
def lookupLast (k : String) : Members → Option Json
  | [] => none
  | (k', v) :: ms => (lookupLast k ms).or (if k = k' then some v else none)

end Json

/-! ### Lemmas on lookup and canonical form -/
namespace Json

@[simp] theorem lookup_nil (k : String) : List.lookup k ([] : Members) = none := rfl
theorem lookup_cons' (k k' : String) (v : Json) (ms : Members) :
    List.lookup k ((k', v) :: ms) = if k = k' then some v else List.lookup k ms := by
  simp only [List.lookup_cons]
  by_cases h : k = k'
  · subst h; simp
  · rw [if_neg h]
    have : (k == k') = false := by simp [h]
    rw [this]

theorem lookup_insertKV (k k' : String) (v : Json) (ms : Members) :
    List.lookup k (insertKV k' v ms) = if k = k' then some v else List.lookup k ms := by
  induction ms with
  | nil => simp [insertKV, lookup_cons']
  | cons m ms ih =>
    obtain ⟨k'', v''⟩ := m
    simp only [insertKV]
    split
    · simp [lookup_cons']
    · split
      · rename_i h1 h2; subst h2; simp only [lookup_cons']; split <;> rfl
      · rename_i h1 h2
        simp only [lookup_cons', ih]
        split
        · rename_i h3; subst h3; rw [if_neg]; exact fun h => h2 h.symm
        · rfl

theorem lookup_canonMembers (k : String) (ms acc : Members) :
    List.lookup k (canonMembers ms acc) =
      ((lookupLast k ms).map canon).or (List.lookup k acc) := by
  induction ms generalizing acc with
  | nil => simp [canonMembers, lookupLast]
  | cons m ms ih =>
    obtain ⟨k', v⟩ := m
    simp only [canonMembers, ih, lookupLast, lookup_insertKV]
    cases lookupLast k ms <;> simp
    split <;> simp

theorem sortedKeys_tail {m : String × Json} {ms : Members} (h : sortedKeys (m :: ms) = true) :
    sortedKeys ms = true := by
  cases ms with
  | nil => rfl
  | cons m' ms => obtain ⟨k, v⟩ := m; obtain ⟨k', v'⟩ := m'; simp_all [sortedKeys]

theorem sortedKeys_lt {k : String} {v : Json} {ms : Members}
    (h : sortedKeys ((k, v) :: ms) = true) : ∀ m ∈ ms, k < m.1 := by
  induction ms generalizing k v with
  | nil => simp
  | cons m ms ih =>
    obtain ⟨k', v'⟩ := m
    simp only [sortedKeys, Bool.and_eq_true, decide_eq_true_eq] at h
    intro m hm
    rcases List.mem_cons.mp hm with rfl | hm
    · exact h.1
    · have := ih h.2 m hm
      grind

theorem sortedKeys_cons {k : String} {v : Json} {ms : Members}
    (hs : sortedKeys ms = true) (h : ∀ m ∈ ms, k < m.1) : sortedKeys ((k, v) :: ms) = true := by
  cases ms with
  | nil => rfl
  | cons m ms =>
    obtain ⟨k', v'⟩ := m
    simp only [sortedKeys, Bool.and_eq_true, decide_eq_true_eq]
    exact ⟨h (k', v') (by simp), hs⟩

theorem mem_insertKV {k : String} {v : Json} {ms : Members} {m : String × Json}
    (h : m ∈ insertKV k v ms) : m = (k, v) ∨ m ∈ ms := by
  induction ms with
  | nil => simpa [insertKV] using h
  | cons a ms ih =>
    obtain ⟨k', v'⟩ := a
    simp only [insertKV] at h
    split at h
    · simpa using h
    · split at h
      · rcases List.mem_cons.mp h with h | h
        · exact .inl h
        · exact .inr (List.mem_cons_of_mem _ h)
      · rcases List.mem_cons.mp h with h | h
        · exact .inr (by simp [h])
        · rcases ih h with h | h
          · exact .inl h
          · exact .inr (List.mem_cons_of_mem _ h)

theorem sortedKeys_insertKV {k : String} {v : Json} {ms : Members}
    (h : sortedKeys ms = true) : sortedKeys (insertKV k v ms) = true := by
  induction ms with
  | nil => rfl
  | cons a ms ih =>
    obtain ⟨k', v'⟩ := a
    simp only [insertKV]
    split
    · rename_i hlt; simp [sortedKeys, hlt, h]
    · split
      · rename_i hnlt heq; subst heq
        exact sortedKeys_cons (sortedKeys_tail h) (sortedKeys_lt h)
      · rename_i hnlt hne
        refine sortedKeys_cons (ih (sortedKeys_tail h)) ?_
        intro m hm
        rcases mem_insertKV hm with rfl | hm
        · grind
        · exact sortedKeys_lt h m hm

theorem isValueMembers_insertKV {k : String} {v : Json} {ms : Members}
    (hv : isValue v = true) (h : isValueMembers ms = true) :
    isValueMembers (insertKV k v ms) = true := by
  induction ms with
  | nil => simp [insertKV, isValueMembers, hv]
  | cons a ms ih =>
    obtain ⟨k', v'⟩ := a
    simp only [isValueMembers, Bool.and_eq_true] at h
    simp only [insertKV]
    split
    · simp [isValueMembers, hv, h]
    · split <;> simp [isValueMembers, hv, h, ih h.2]

mutual
/-- The result of the conversion satisfies the `Value` invariant. -/
theorem isValue_canon : ∀ j : Json, isValue (canon j) = true
  | .arr xs => by simp [canon, isValue, isValueList_canonList xs]
  | .obj ms => by
    have := isValue_canonMembers ms [] rfl rfl
    simp [canon, isValue, this]
  | .null => rfl
  | .bool _ => rfl
  | .int _ => rfl
  | .float _ => rfl
  | .str _ => rfl
theorem isValueList_canonList : ∀ xs : List Json, isValueList (canonList xs) = true
  | [] => rfl
  | x :: xs => by simp [canonList, isValueList, isValue_canon x, isValueList_canonList xs]
theorem isValue_canonMembers : ∀ (ms acc : Members), sortedKeys acc = true →
    isValueMembers acc = true →
    sortedKeys (canonMembers ms acc) = true ∧ isValueMembers (canonMembers ms acc) = true
  | [], acc, h1, h2 => by simp [canonMembers, h1, h2]
  | (k, v) :: ms, acc, h1, h2 => by
    simp only [canonMembers]
    exact isValue_canonMembers ms _ (sortedKeys_insertKV h1)
      (isValueMembers_insertKV (isValue_canon v) h2)
end

theorem insertKV_append {k : String} {v : Json} {acc : Members} (h : ∀ m ∈ acc, m.1 < k) :
    insertKV k v acc = acc ++ [(k, v)] := by
  induction acc with
  | nil => rfl
  | cons a acc ih =>
    obtain ⟨k', v'⟩ := a
    have h1 : k' < k := h (k', v') (by simp)
    have h2 : ¬ k < k' := by grind
    have h3 : k ≠ k' := by grind
    simp [insertKV, h2, h3, ih (fun m hm => h m (by simp [hm]))]

mutual
/-- The conversion is the identity on `Value`s. -/
theorem canon_of_isValue : ∀ j : Json, isValue j = true → canon j = j
  | .arr xs, h => by
    simp only [isValue] at h
    simp [canon, canonList_of_isValue xs h]
  | .obj ms, h => by
    simp only [isValue, Bool.and_eq_true] at h
    simp [canon, canonMembers_of_isValue ms [] h.1 h.2 (by simp)]
  | .null, _ => rfl
  | .bool _, _ => rfl
  | .int _, _ => rfl
  | .float _, _ => rfl
  | .str _, _ => rfl
theorem canonList_of_isValue : ∀ xs : List Json, isValueList xs = true → canonList xs = xs
  | [], _ => rfl
  | x :: xs, h => by
    simp only [isValueList, Bool.and_eq_true] at h
    simp [canonList, canon_of_isValue x h.1, canonList_of_isValue xs h.2]
theorem canonMembers_of_isValue : ∀ (ms acc : Members), sortedKeys ms = true →
    isValueMembers ms = true → (∀ a ∈ acc, ∀ m ∈ ms, a.1 < m.1) →
    canonMembers ms acc = acc ++ ms
  | [], acc, _, _, _ => by simp [canonMembers]
  | (k, v) :: ms, acc, h1, h2, h3 => by
    simp only [isValueMembers, Bool.and_eq_true] at h2
    simp only [canonMembers, canon_of_isValue v h2.1]
    rw [insertKV_append (fun m hm => h3 m hm (k, v) (by simp))]
    rw [canonMembers_of_isValue ms _ (sortedKeys_tail h1) h2.2]
    · simp
    · intro a ha m hm
      rcases List.mem_append.mp ha with ha | ha
      · exact h3 a ha m (by simp [hm])
      · simp only [List.mem_singleton] at ha; subst ha
        exact sortedKeys_lt h1 m hm
end

@[simp] theorem canon_canon (j : Json) : canon (canon j) = canon j :=
  canon_of_isValue _ (isValue_canon j)

theorem lookup_mem {k : String} {v : Json} {ms : Members} (h : List.lookup k ms = some v) :
    (k, v) ∈ ms := by
  induction ms with
  | nil => simp at h
  | cons a ms ih =>
    obtain ⟨k', v'⟩ := a
    rw [lookup_cons'] at h
    split at h
    · simp_all
    · simp [ih h]

/-- Sorted member lists are determined by their lookups. -/
theorem sorted_ext : ∀ {a b : Members}, sortedKeys a = true → sortedKeys b = true →
    (∀ k, List.lookup k a = List.lookup k b) → a = b
  | [], [], _, _, _ => rfl
  | [], (k, v) :: b, _, _, h => by have := h k; simp at this
  | (k, v) :: a, [], _, _, h => by have := h k; simp at this
  | (k, v) :: a, (l, w) :: b, ha, hb, h => by
    have hk : k = l := by
      have h1 := h k
      have h2 := h l
      simp only [lookup_cons', if_true] at h1 h2
      by_cases e : k = l
      · exact e
      · rw [if_neg e] at h1
        rw [if_neg (Ne.symm e)] at h2
        have m1 := sortedKeys_lt hb _ (lookup_mem h1.symm)
        have m2 := sortedKeys_lt ha _ (lookup_mem h2)
        grind
    subst hk
    have hv : v = w := by have := h k; simpa [lookup_cons'] using this
    subst hv
    congr 1
    refine sorted_ext (sortedKeys_tail ha) (sortedKeys_tail hb) ?_
    intro l
    have := h l
    simp only [lookup_cons'] at this
    by_cases e : l = k
    · subst e
      have n1 : List.lookup l a = none := by
        cases hh : List.lookup l a with
        | none => rfl
        | some x => have := sortedKeys_lt ha _ (lookup_mem hh); grind
      have n2 : List.lookup l b = none := by
        cases hh : List.lookup l b with
        | none => rfl
        | some x => have := sortedKeys_lt hb _ (lookup_mem hh); grind
      rw [n1, n2]
    · simpa [e] using this

/-- Two objects with the same last-wins lookups convert to the same `Value`. -/
theorem canon_obj_ext {a b : Members} (h : ∀ k, lookupLast k a = lookupLast k b) :
    canon (.obj a) = canon (.obj b) := by
  simp only [canon, Json.obj.injEq]
  refine sorted_ext (isValue_canonMembers a [] rfl rfl).1 (isValue_canonMembers b [] rfl rfl).1 ?_
  intro k
  simp [lookup_canonMembers, h k]

@[simp] theorem canonList_eq_map (xs : List Json) : canonList xs = xs.map canon := by
  induction xs with
  | nil => rfl
  | cons x xs ih => simp [canonList, ih]

end Json

/-! ### `serde_json::Value` -/

/-- `serde_json::Value`: a canonical tree.
The type of bsp-server/src/response.rs:11, 21 and of the parameters of `Custom` in request.rs and notification.rs. -/
def Value : Type := { j : Json // j.isValue = true }

instance : DecidableEq Value := inferInstanceAs (DecidableEq { j : Json // j.isValue = true })

namespace Value

/-- The tree of a `Value`. Its serialisation, bsp-server/src/message.rs:44. -/
def json (v : Value) : Json := v.1

/-- `Value::Null`.
As tested by the serialisers of bsp-server/src/request.rs:278 and bsp-types/src/task/finish.rs:32. -/
def null : Value := ⟨.null, rfl⟩

instance : Inhabited Value := ⟨null⟩

/-- `serde_json::Value::deserialize` / `serde_json::to_value` on an already produced tree.
bsp-server/src/response.rs:28. -/
def ofJson (j : Json) : Value := ⟨j.canon, Json.isValue_canon j⟩

/-- `Value::is_null`. bsp-server/src/request.rs:278. -/
def isNull (v : Value) : Bool := v.json == .null

@[ext] theorem ext {v w : Value} (h : v.json = w.json) : v = w := Subtype.ext h

@[simp] theorem json_ofJson (j : Json) : (ofJson j).json = j.canon := rfl
@[simp] theorem canon_json (v : Value) : v.json.canon = v.json := Json.canon_of_isValue _ v.2
@[simp] theorem ofJson_json (v : Value) : ofJson v.json = v := by ext; simp
@[simp] theorem ofJson_canon (j : Json) : ofJson j.canon = ofJson j := by ext; simp
@[simp] theorem json_null : null.json = .null := rfl
theorem isNull_iff (v : Value) : v.isNull = true ↔ v = null := by
  constructor
  · intro h; ext; simpa [isNull] using h
  · rintro rfl; rfl

end Value
end Bsp
