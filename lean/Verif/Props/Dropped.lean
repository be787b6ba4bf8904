/-
C57, when the application drops both ends without waiting for exit.
-/
import Verif.Props.Transport

namespace Bsp
open Frame Json Transport

section
variable [LawfulExt] [FloatText]

omit [LawfulExt] [FloatText] in
/-- A bound for the number of steps left to a reader whose application is gone. -/
def readLeft [Ext] : Reader → Nat
  | .reading => 2
  | .sending _ => 1
  | _ => 0

theorem dropped_work {k : Kind} {s s' : State} {a : Act} (hr : s.rxAlive = false) (ht : s.txAlive = false)
    (hs : Step k s a s') :
    (s'.rxAlive = false ∧ s'.txAlive = false) ∧
      (if a.thread then 1 else 0) + (readLeft s'.reader + workLeft s'.writer) ≤ readLeft s.reader + workLeft s.writer := by
  cases hs with
  | read r h1 _ =>
    cases r <;> cases k <;> simp [afterRead, readError, readLeft, Act.thread, h1, hr, ht] <;> omega
  | deliver m _ h1 => rw [hr] at h1; cases h1
  | undeliverable m h1 _ => exact ⟨⟨hr, ht⟩, by simp [Act.thread, readLeft, h1]⟩
  | accept m _ h2 => rw [ht] at h2; cases h2
  | write a b h1 h2 =>
    have : 0 < a.length := List.length_pos_iff.2 h2
    simp only [Act.thread, h1, workLeft, List.length_append]
    exact ⟨⟨hr, ht⟩, by simp; omega⟩
  | written h1 => exact ⟨⟨hr, ht⟩, by simp [Act.thread, h1, workLeft]; omega⟩
  | writeFails b h1 =>
    exact ⟨⟨hr, ht⟩, by cases k <;> simp [Act.thread, h1, workLeft, writeError] <;> omega⟩
  | close h1 _ => exact ⟨⟨hr, ht⟩, by simp [Act.thread, h1, workLeft]; omega⟩
  | dropTx => exact ⟨⟨hr, rfl⟩, by simp [Act.thread]⟩
  | dropRx => exact ⟨⟨rfl, ht⟩, by simp [Act.thread]⟩
  | _ => exact ⟨⟨hr, ht⟩, by simp [Act.thread]⟩

/-- C57: once the application has dropped its connection, there is a bound on the number of steps the two threads still
take, whatever the peer does; and in every state on the way either both have ended, or one of them can take a step, or only
the reader is left and waits for the peer, which has not closed the stream. -/
theorem C57_dropped {k : Kind} {s : State} (hr : s.rxAlive = false) (ht : s.txAlive = false) :
    ∃ n, ∀ as s', Steps k s as s' →
      (as.filter Act.thread).length ≤ n ∧
      ((s'.reader.ended = true ∧ s'.writer.ended = true) ∨ (∃ a s'', a.thread = true ∧ Step k s' a s'') ∨
        (s'.reader = .reading ∧ s'.inEnd = none ∧ s'.writer.ended = true)) := by
  refine ⟨readLeft s.reader + workLeft s.writer, ?_⟩
  intro as s' hs
  have key : (s'.rxAlive = false ∧ s'.txAlive = false) ∧
      (as.filter Act.thread).length + (readLeft s'.reader + workLeft s'.writer) ≤ readLeft s.reader + workLeft s.writer := by
    induction hs with
    | nil => exact ⟨⟨hr, ht⟩, by simp⟩
    | snoc h1 h2 ih =>
      obtain ⟨⟨h3, h4⟩, h5⟩ := ih
      obtain ⟨h6, h7⟩ := dropped_work h3 h4 h2
      refine ⟨h6, ?_⟩
      rw [List.filter_append, List.length_append, List.filter_cons, List.filter_nil]
      rename_i a _
      cases ha : a.thread <;> simp [ha] at h7 ⊢ <;> omega
  refine ⟨by omega, ?_⟩
  have hwr : s'.writer.ended = true ∨ ∃ a s'', a.thread = true ∧ Step k s' a s'' := by
    cases hw : s'.writer with
    | idle => exact .inr ⟨_, _, rfl, .close s' hw key.1.2⟩
    | writing rest => exact .inr ⟨_, _, rfl, .writeFails s' rest hw⟩
    | _ => exact .inl rfl
  rcases hwr with hwr | hwr
  · cases h : s'.reader with
    | reading =>
      cases he : s'.inEnd with
      | none => exact .inr (.inr ⟨rfl, rfl, hwr⟩)
      | some b =>
        refine .inr (.inl ⟨_, _, rfl, .read s' (readMsg ⟨s'.unread, b⟩) h ?_⟩)
        simp only [Settled, he]
    | sending m => exact .inr (.inl ⟨_, _, rfl, .undeliverable s' m h key.1.1⟩)
    | _ => exact .inl ⟨rfl, hwr⟩
  · exact .inr (.inl hwr)

end
section
attribute [local instance] Ext.sample FloatText.sample

/-- Beside C57_dropped: the application drops both ends while the reader has exit to hand over; it panics, and the writer
ends. -/
example (k : Kind) : ∃ as s, Steps k { reader := .sending (.notification .exit), rxAlive := false, txAlive := false } as s ∧
    s.reader = .panicked ∧ s.writer = .done ∧ ∃ n, (as.filter Act.thread).length ≤ n :=
  have h : Steps k { reader := .sending (.notification .exit), rxAlive := false, txAlive := false } [.undeliverable, .close]
      { reader := .panicked, rxAlive := false, txAlive := false, writer := .done } :=
    .snoc (.snoc (.nil _) (.undeliverable _ _ rfl rfl)) (.close _ rfl rfl)
  ⟨_, _, h, rfl, rfl, (C57_dropped rfl rfl).imp fun _ hn => (hn _ _ h).1⟩

end
end Bsp
