/-
C59, C60: the request queue.
-/
import Verif.ReqQueue

namespace Bsp
open Queue

/-! ### Specification over what happened (latest first) -/

/-- What is pending under an id: what was registered last, unless it was completed since. -/
def Spec.outPending (id : RequestId) : List (OutEv α) → Option α
  | [] => none
  | .registered i d :: t => if i = id then some d else Spec.outPending id t
  | .completed i (some _) :: t => if i = id then none else Spec.outPending id t
  | .completed _ none :: t => Spec.outPending id t

/-- The ids handed out, latest first. -/
def Spec.outIds : List (OutEv α) → List RequestId
  | [] => []
  | .registered i _ :: t => i :: Spec.outIds t
  | _ :: t => Spec.outIds t

/-- What is pending under an id: what was registered last, unless it was completed or cancelled since. -/
def Spec.inPending (id : RequestId) : List (InEv α) → Option α
  | [] => none
  | .registered i d :: t => if i = id then some d else Spec.inPending id t
  | .completed i (some _) :: t => if i = id then none else Spec.inPending id t
  | .completed _ none :: t => Spec.inPending id t
  | .cancelled i (some _) :: t => if i = id then none else Spec.inPending id t
  | .cancelled _ none :: t => Spec.inPending id t

/-! ### C59 -/

/-- What is known after a sequence of calls. -/
structure OutInv (evs : List (OutEv α)) (q : Outgoing α) : Prop where
  next : q.next = Int32.ofNat (Spec.outIds evs).length
  ids : ∀ k, k < (Spec.outIds evs).length →
    (Spec.outIds evs).reverse[k]? = some (.i32 (Int32.ofNat k))
  pending : ∀ id, q.pending id = Spec.outPending id evs

theorem out_run (checked : Bool) (ops : List (OutOp α)) : ∀ {evs q},
    Outgoing.run checked ops = some (evs, q) → OutInv evs q ∧
      (checked = true → (Spec.outIds evs).length < 2 ^ 31) := by
  induction ops with
  | nil =>
    intro evs q h
    cases h
    exact ⟨⟨rfl, by simp [Spec.outIds], fun _ => rfl⟩, by simp [Spec.outIds]⟩
  | cons op ops ih =>
    intro evs q h
    simp only [Outgoing.run] at h
    cases hr : Outgoing.run checked ops with
    | none => rw [hr] at h; cases h
    | some p =>
      obtain ⟨evs', q'⟩ := p
      rw [hr] at h
      obtain ⟨⟨h1, h2, h3⟩, h4⟩ := ih hr
      cases op with
      | register data =>
        simp only [Outgoing.register] at h
        split at h
        · cases h
        · rename_i id q'' he
          cases h
          split at he
          · cases he
          · rename_i hne
            cases he
            refine ⟨⟨?_, ?_, ?_⟩, ?_⟩
            · simp only [Spec.outIds, List.length_cons, h1]
              exact (Int32.ofNat_add _ 1).symm
            · intro k hk
              simp only [Spec.outIds, List.length_cons] at hk
              simp only [Spec.outIds, List.reverse_cons]
              by_cases hk' : k < (Spec.outIds evs').length
              · rw [List.getElem?_append_left (by simpa using hk')]
                exact h2 k hk'
              · have : k = (Spec.outIds evs').length := by omega
                subst this
                rw [List.getElem?_append_right (by simp)]
                simp [h1]
            · intro id
              simp only [Table.insert, Spec.outPending, h3]
              by_cases hid : id = .i32 q'.next
              · simp [hid]
              · rw [if_neg hid, if_neg (fun h => hid h.symm)]
            · intro hc
              have := h4 hc
              simp only [Spec.outIds, List.length_cons]
              have hn : q'.next ≠ Int32.maxValue := fun h => hne ⟨hc, h⟩
              rcases Nat.lt_or_ge ((Spec.outIds evs').length + 1) (2 ^ 31) with h | h
              · exact h
              · have : (Spec.outIds evs').length = 2 ^ 31 - 1 := by omega
                rw [h1, this] at hn
                exact absurd rfl hn
      | complete id =>
        simp only [Outgoing.complete, Table.remove] at h
        cases h
        refine ⟨⟨h1, h2, ?_⟩, h4⟩
        intro i
        simp only [h3]
        by_cases hi : i = id
        · subst hi
          cases hp : Spec.outPending i evs' <;> simp [Spec.outPending, hp]
        · cases hp : Spec.outPending id evs' <;> simp [Spec.outPending, hi, Ne.symm hi]

/-- C59: the ids handed out are 0, 1, 2, ... (in 32 bits) whatever calls are made in between. -/
theorem C59_ids (checked : Bool) (ops : List (OutOp α)) (evs : List (OutEv α)) (q : Outgoing α)
    (h : Outgoing.run checked ops = some (evs, q)) (k : Nat) (hk : k < (Spec.outIds evs).length) :
    (Spec.outIds evs).reverse[k]? = some (.i32 (Int32.ofNat k)) :=
  (out_run checked ops h).1.ids k hk

/-- C59: with checked arithmetic all ids handed out are different; without, they are as long as there are at
most 2^32 of them. -/
theorem C59_fresh (checked : Bool) (ops : List (OutOp α)) (evs : List (OutEv α)) (q : Outgoing α)
    (h : Outgoing.run checked ops = some (evs, q))
    (hn : checked = true ∨ (Spec.outIds evs).length ≤ 2 ^ 32) : (Spec.outIds evs).Nodup := by
  obtain ⟨⟨_, h2, _⟩, h4⟩ := out_run checked ops h
  have hlen : (Spec.outIds evs).length ≤ 2 ^ 32 := by
    rcases hn with hn | hn
    · have := h4 hn; omega
    · exact hn
  have h5 : ∀ i, i < (Spec.outIds evs).length →
      (Spec.outIds evs)[i]? = some (.i32 (Int32.ofNat ((Spec.outIds evs).length - 1 - i))) := by
    intro i hi
    rw [← h2 _ (by omega), List.getElem?_reverse (by omega)]
    congr 1; omega
  rw [List.Nodup, List.pairwise_iff_getElem]
  intro i j hi hj hij he
  have := h5 i hi
  rw [List.getElem?_eq_getElem hi, he, ← List.getElem?_eq_getElem hj, h5 j hj] at this
  have he := this
  simp only [Option.some.injEq, RequestId.i32.injEq] at he
  have e := congrArg (fun x : Int32 => x.toBitVec.toNat) he
  simp only [Int32.toBitVec_ofNat', BitVec.toNat_ofNat] at e
  omega

/-- C59: with checked arithmetic `register` panics exactly when 2^31 - 1 ids have been handed out (so that the
bound of the claim is reached with one registration less). -/
theorem C59_overflow (ops : List (OutOp α)) (evs : List (OutEv α)) (q : Outgoing α)
    (h : Outgoing.run true ops = some (evs, q)) (data : α) :
    Outgoing.run true (.register data :: ops) = none ↔ (Spec.outIds evs).length = 2 ^ 31 - 1 := by
  obtain ⟨⟨h1, _, _⟩, h4⟩ := out_run true ops h
  have hl := h4 rfl
  have key : q.next = Int32.maxValue ↔ (Spec.outIds evs).length = 2 ^ 31 - 1 := by
    rw [h1]
    constructor
    · intro he
      have e := congrArg (fun x : Int32 => x.toBitVec.toNat) he
      simp only [Int32.toBitVec_ofNat', BitVec.toNat_ofNat] at e
      have : (Int32.maxValue).toBitVec.toNat = 2 ^ 31 - 1 := by decide
      rw [this] at e
      omega
    · intro he; rw [he]; rfl
  rw [← key]
  simp only [Outgoing.run, h, Outgoing.register]
  by_cases hq : q.next = Int32.maxValue <;> simp [hq]

/-- C59: without overflow checks the id of registration number 2^32 is the one of the first. -/
theorem C59_wraps (ops : List (OutOp α)) (evs : List (OutEv α)) (q : Outgoing α)
    (h : Outgoing.run false ops = some (evs, q)) (hk : 2 ^ 32 < (Spec.outIds evs).length) :
    (Spec.outIds evs).reverse[2 ^ 32]? = (Spec.outIds evs).reverse[0]? := by
  rw [C59_ids false ops evs q h _ hk, C59_ids false ops evs q h 0 (by omega)]
  rfl

/-- C59: a completion returns what was last registered under the id and not completed since. -/
theorem C59_complete (checked : Bool) (ops : List (OutOp α)) (evs : List (OutEv α)) (q : Outgoing α)
    (h : Outgoing.run checked ops = some (evs, q)) (id : RequestId) :
    ∃ q', Outgoing.run checked (.complete id :: ops) =
      some (.completed id (Spec.outPending id evs) :: evs, q') := by
  obtain ⟨⟨_, _, h3⟩, _⟩ := out_run checked ops h
  simp only [Outgoing.run, h, Outgoing.complete, Table.remove, h3]
  exact ⟨_, rfl⟩

/-- How often an id was completed with success. -/
def Spec.outCompletions (id : RequestId) : List (OutEv α) → Nat
  | [] => 0
  | .completed i (some _) :: t => (if i = id then 1 else 0) + Spec.outCompletions id t
  | _ :: t => Spec.outCompletions id t

/-- C59: an id that was handed out once is completed with success at most once, one that never was, never. -/
theorem C59_once (checked : Bool) (ops : List (OutOp α)) : ∀ (evs : List (OutEv α)) (q : Outgoing α),
    Outgoing.run checked ops = some (evs, q) → ∀ (id : RequestId),
    Spec.outCompletions id evs + (Spec.outPending id evs).toList.length ≤
      (Spec.outIds evs).count id := by
  induction ops with
  | nil => intro evs q h id; cases h; simp [Spec.outCompletions, Spec.outPending, Spec.outIds]
  | cons op ops ih =>
    intro evs q h id
    simp only [Outgoing.run] at h
    cases hr : Outgoing.run checked ops with
    | none => rw [hr] at h; cases h
    | some p =>
      obtain ⟨evs', q'⟩ := p
      rw [hr] at h
      have ih' := ih evs' q' hr id
      cases op with
      | register data =>
        simp only at h
        split at h
        · cases h
        · rename_i i q'' he
          cases h
          simp only [Spec.outCompletions, Spec.outPending, Spec.outIds, List.count_cons]
          by_cases hi : i = id
          · simp [hi]; omega
          · simp [hi]; exact ih'
      | complete i =>
        simp only [Outgoing.complete, Table.remove] at h
        cases h
        rw [(out_run checked ops hr).1.pending i]
        cases hp : Spec.outPending i evs' with
        | none => simpa [Spec.outCompletions, Spec.outPending, Spec.outIds] using ih'
        | some d =>
          by_cases hi : i = id
          · subst hi
            simp only [hp] at ih'
            simp [Spec.outCompletions, Spec.outPending, Spec.outIds]
            simpa [Nat.add_comm] using ih'
          · simpa [Spec.outCompletions, Spec.outPending, Spec.outIds, hi] using ih'

/-- Beside C59: two registrations, the first one completed twice. -/
example : ∃ q, Outgoing.run true [.complete (.i32 0), .complete (.i32 0), .register 'b', .register 'a'] =
    some ([.completed (.i32 0) none, .completed (.i32 0) (some 'a'), .registered (.i32 1) 'b',
      .registered (.i32 0) 'a'], q) := ⟨_, rfl⟩

/-! ### C60 -/

theorem in_run (ops : List (InOp α)) (id : RequestId) :
    (Incoming.run ops).2.pending id = Spec.inPending id (Incoming.run ops).1 := by
  induction ops generalizing id with
  | nil => rfl
  | cons op ops ih =>
    cases op with
    | register i data =>
      simp only [Incoming.run, Incoming.call, Incoming.register, Table.insert, Spec.inPending, ih]
      by_cases hid : id = i
      · simp [hid]
      · rw [if_neg hid, if_neg (fun h => hid h.symm)]
    | complete i =>
      simp only [Incoming.run, Incoming.call, Incoming.complete, Table.remove, ih]
      by_cases hi : id = i
      · subst hi
        cases hp : Spec.inPending id (Incoming.run ops).1 <;> simp [Spec.inPending, hp]
      · cases hp : Spec.inPending i (Incoming.run ops).1 <;> simp [Spec.inPending, hi, Ne.symm hi]
    | cancel i =>
      simp only [Incoming.run, Incoming.call, Incoming.cancel, Incoming.complete, Table.remove, ih]
      cases hp : Spec.inPending i (Incoming.run ops).1 with
      | none =>
        simp only [Spec.inPending]
        by_cases hi : id = i
        · subst hi; simp [hp]
        · simp [hi]
      | some d =>
        simp only [Spec.inPending]
        by_cases hi : id = i
        · simp [hi]
        · simp [hi, Ne.symm hi]

/-- C60: a completion returns what is pending under the id, if anything. -/
theorem C60_complete (ops : List (InOp α)) (id : RequestId) :
    (Incoming.run (.complete id :: ops)).1 =
      .completed id (Spec.inPending id (Incoming.run ops).1) :: (Incoming.run ops).1 := by
  simp only [Incoming.run, Incoming.call, Incoming.complete, Table.remove, in_run]

/-- C60: a cancellation succeeds exactly if something is pending under the id; the answer has that id, code
-32800 and no result. -/
theorem C60_cancel (ops : List (InOp α)) (id : RequestId) :
    (Incoming.run (.cancel id :: ops)).1 =
      .cancelled id (match Spec.inPending id (Incoming.run ops).1 with
        | none => none
        | some _ => some ⟨id, none, some ⟨-32800, "canceled by client", none⟩⟩) ::
        (Incoming.run ops).1 := by
  simp only [Incoming.run, Incoming.call, Incoming.cancel, Incoming.complete, Table.remove, in_run]
  cases Spec.inPending id (Incoming.run ops).1 <;> rfl

/-- How often an id was completed or cancelled with success. -/
def Spec.inEnds (id : RequestId) : List (InEv α) → Nat
  | [] => 0
  | .completed i (some _) :: t => (if i = id then 1 else 0) + Spec.inEnds id t
  | .cancelled i (some _) :: t => (if i = id then 1 else 0) + Spec.inEnds id t
  | _ :: t => Spec.inEnds id t

/-- How often an id was registered. -/
def Spec.inStarts (id : RequestId) : List (InEv α) → Nat
  | [] => 0
  | .registered i _ :: t => (if i = id then 1 else 0) + Spec.inStarts id t
  | _ :: t => Spec.inStarts id t

/-- C60: an id is completed or cancelled with success at most as often as it was registered, and once less while it is
pending. -/
theorem C60_once (ops : List (InOp α)) (id : RequestId) :
    Spec.inEnds id (Incoming.run ops).1 +
      (Spec.inPending id (Incoming.run ops).1).toList.length ≤
      Spec.inStarts id (Incoming.run ops).1 := by
  induction ops with
  | nil => simp [Incoming.run, Spec.inEnds, Spec.inPending, Spec.inStarts]
  | cons op ops ih =>
    cases op with
    | register i data =>
      simp only [Incoming.run, Incoming.call, Spec.inEnds, Spec.inPending, Spec.inStarts]
      by_cases hi : i = id
      · simp [hi]; omega
      · simpa [hi] using ih
    | complete i =>
      rw [C60_complete]
      cases hp : Spec.inPending i (Incoming.run ops).1 with
      | none => simpa [Spec.inEnds, Spec.inPending, Spec.inStarts] using ih
      | some d =>
        by_cases hi : i = id
        · subst hi
          simp [hp] at ih
          simp [Spec.inEnds, Spec.inPending, Spec.inStarts]
          omega
        · simpa [Spec.inEnds, Spec.inPending, Spec.inStarts, hi] using ih
    | cancel i =>
      rw [C60_cancel]
      cases hp : Spec.inPending i (Incoming.run ops).1 with
      | none => simpa [Spec.inEnds, Spec.inPending, Spec.inStarts] using ih
      | some d =>
        by_cases hi : i = id
        · subst hi
          simp [hp] at ih
          simp [Spec.inEnds, Spec.inPending, Spec.inStarts]
          omega
        · simpa [Spec.inEnds, Spec.inPending, Spec.inStarts, hi] using ih

/-- Beside C60: registered, cancelled, completed too late, registered again and completed. -/
example : (Incoming.run [.complete (.str "a"), .register (.str "a") 2, .complete (.str "a"), .cancel (.str "a"),
    .register (.str "a") 1]).1 = [.completed (.str "a") (some 2), .registered (.str "a") 2,
    .completed (.str "a") none,
    .cancelled (.str "a") (some ⟨.str "a", none, some ⟨-32800, "canceled by client", none⟩⟩),
    .registered (.str "a") 1] := rfl

end Bsp
