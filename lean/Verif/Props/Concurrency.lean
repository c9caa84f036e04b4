import Verif.Lemmas.Conc
import Verif.Lemmas.Matrix
import Verif.Props.Example

/-!
# C68: parallel products under all interleavings

`Conc` interleaves the single steps of all threads. Every run ends, no thread waits forever, and the only possible result
(value or panic) is that of the sequential product.
-/

set_option linter.unusedSectionVars false

namespace GS
variable {F G : Type} [Field F] [AddCommGroup G] [Module F G]

theorem idx_error {α : Type} {l : List α} {i : Nat} {p : Panic} (h : idx l i = .error p) : p = .indexOutOfBounds := by
  induction l generalizing i with
  | nil => cases h; rfl
  | cons a l ih =>
    cases i with
    | zero => cases h
    | succ i => exact ih h

theorem idx_lt {α : Type} {l : List α} {i : Nat} (h : i < l.length) : ∃ a, idx l i = .ok a := by
  induction l generalizing i with
  | nil => simp at h
  | cons a l ih =>
    cases i with
    | zero => exact ⟨a, rfl⟩
    | succ i => exact ih (by simpa using h)

theorem idx2_error {α : Type} {M : Matrix α} {i j : Nat} {p : Panic} (h : idx2 M i j = .error p) :
    p = .indexOutOfBounds := by
  simp only [idx2] at h
  rcases h1 : idx M i with p1 | row
  · rw [h1] at h; cases h; exact idx_error h1
  · rw [h1] at h; exact idx_error h

theorem bind_swap {A B β : Type} {q : Panic} {x : Res A} {y : Res B} (hx : ∀ p, x = .error p → p = q)
    (hy : ∀ p, y = .error p → p = q) (f : A → B → β) :
    (do let a ← x; let b ← y; pure (f a b) : Res β) = (do let b ← y; let a ← x; pure (f a b)) := by
  rcases x with p | a
  · rcases y with p' | b
    · rw [hx p rfl, hy p' rfl]; rfl
    · rfl
  · rcases y with p' | b <;> rfl

theorem seqGrid_congr {β : Type} {m n : Nat} {f g : Nat → Nat → Res β} (h : ∀ i < m, ∀ j < n, f i j = g i j) :
    seqGrid m n f = seqGrid m n g := by
  have hc : ∀ {γ : Type} (l : List Nat) (f g : Nat → Res γ), (∀ i ∈ l, f i = g i) → collect f l = collect g l := by
    intro γ l f g h
    induction l with
    | nil => rfl
    | cons x l ih =>
      rw [collect, collect, h x (by simp), ih fun i hi => h i (by simp [hi])]
  exact hc _ _ _ fun i hi => hc _ _ _ fun j hj => h i (List.mem_range.mp hi) j (List.mem_range.mp hj)

theorem concProduct_returns {A B β : Type} [Zero β] [Add β] (L : Matrix A) (R : Matrix B) (term : A → B → β)
    (entry : Nat → Nat → Res β)
    (he : ∀ i < L.length, ∀ j, entry i j = (do
      let t ← collect (fun k => do let a ← idx2 L i k; let b ← idx2 R k j; pure (term a b)) (List.range R.length)
      pure (rustSum t)))
    (r : Res (Matrix β)) : (concProduct L R term).Returns r ↔ r = (do
      if isEmptyMat L then return []
      if isEmptyMat R then return []
      assertEq (← firstRowLen L) R.length
      let colDim ← firstRowLen R
      seqGrid L.length colDim entry) := by
  unfold concProduct
  split
  · rfl
  split
  · rfl
  · rcases h1 : firstRowLen L with p | l
    · rfl
    · simp only [ok_bind]
      rcases h2 : assertEq l R.length with p | _
      · rfl
      · rcases h3 : firstRowLen R with p | n
        · rfl
        · have := par_returns (m := L.length) (n := n) (q := .indexOutOfBounds) (ts := fun i j => (List.range R.length).map fun k => do
              let a ← idx2 L i k
              let b ← idx2 R k j
              pure (term a b)) (fun i j p hp => by
            obtain ⟨k, -, hk⟩ := List.mem_map.mp hp
            rcases h1 : idx2 L i k with p1 | a
            · rw [h1] at hk; cases hk; exact idx2_error h1
            · rcases h2 : idx2 R k j with p2 | b
              · rw [h1, ok_bind, h2] at hk; cases hk; exact idx2_error h2
              · rw [h1, ok_bind, h2] at hk; cases hk) r
          have hcongr := seqGrid_congr (m := L.length) (n := n) (f := entry) (g := fun i j => evalTerms ((List.range R.length).map fun k => do
              let a ← idx2 L i k
              let b ← idx2 R k j
              pure (term a b)) 0) (fun i hi j _ => by rw [he i hi j, evalTerms_sum])
          rw [← hcongr] at this
          exact this

theorem concProduct_terminates {A B β : Type} [Zero β] [Add β] (L : Matrix A) (R : Matrix B) (term : A → B → β) :
    (concProduct L R term).Terminates := by
  unfold concProduct
  split
  · trivial
  split
  · trivial
  · split
    · trivial
    · exact par_terminates _ _ _

/-- C68: `right_mul` of matrices of commitments. -/
theorem C68_com_right_mul (self : Matrix (Com G)) (rhs : Matrix F) (sch : Scheduler) :
    (ComMat.rightMulConc self rhs).Terminates ∧
    ∀ r, (ComMat.rightMulConc self rhs).Returns r ↔ r = ComMat.rightMul sch self rhs false := by
  refine ⟨concProduct_terminates _ _ _, fun r => ?_⟩
  refine (concProduct_returns self rhs _ _ (fun i hi j => ?_) r).trans (Iff.of_eq (congrArg (r = ·) rfl))
  obtain ⟨row, hrow⟩ := idx_lt hi
  simp only [hrow, ok_bind, idx2]

/-- C68: `left_mul` of matrices of commitments. -/
theorem C68_com_left_mul (self : Matrix (Com G)) (lhs : Matrix F) (sch : Scheduler) :
    (ComMat.leftMulConc self lhs).Terminates ∧
    ∀ r, (ComMat.leftMulConc self lhs).Returns r ↔ r = ComMat.leftMul sch self lhs false := by
  refine ⟨concProduct_terminates _ _ _, fun r => ?_⟩
  refine (concProduct_returns lhs self _ _ (fun i hi j => ?_) r).trans (Iff.of_eq (congrArg (r = ·) rfl))
  obtain ⟨row, hrow⟩ := idx_lt hi
  have : ∀ k, idx2 lhs i k = idx row k := fun k => by rw [idx2, hrow, ok_bind]
  simp only [hrow, ok_bind, this]
  congr 1
  congr 1
  funext k
  exact bind_swap (fun p => idx2_error) (fun p => idx_error) _

/-- C68: `right_mul` of matrices of scalars. -/
theorem C68_field_right_mul (self rhs : Matrix F) (sch : Scheduler) :
    (FieldMat.rightMulConc self rhs).Terminates ∧
    ∀ r, (FieldMat.rightMulConc self rhs).Returns r ↔ r = FieldMat.rightMul sch self rhs false := by
  refine ⟨concProduct_terminates _ _ _, fun r => ?_⟩
  refine (concProduct_returns self rhs _ _ (fun i hi j => ?_) r).trans (Iff.of_eq (congrArg (r = ·) rfl))
  obtain ⟨row, hrow⟩ := idx_lt hi
  simp only [hrow, ok_bind, idx2]

/-- C68: `left_mul` of matrices of scalars. -/
theorem C68_field_left_mul (self lhs : Matrix F) (sch : Scheduler) :
    (FieldMat.leftMulConc self lhs).Terminates ∧
    ∀ r, (FieldMat.leftMulConc self lhs).Returns r ↔ r = FieldMat.leftMul sch self lhs false := by
  refine ⟨concProduct_terminates _ _ _, fun r => ?_⟩
  refine (concProduct_returns lhs self _ _ (fun i hi j => ?_) r).trans (Iff.of_eq (congrArg (r = ·) rfl))
  obtain ⟨row, hrow⟩ := idx_lt hi
  have : ∀ k, idx2 lhs i k = idx row k := fun k => by rw [idx2, hrow, ok_bind]
  simp only [hrow, ok_bind, this]
  congr 1
  congr 1
  funext k
  exact bind_swap (fun p => idx2_error) (fun p => idx_error) _

/-- Threads are really used, the only result is the product, and a short row makes every interleaving panic. -/
example : (∃ ts, FieldMat.rightMulConc ([[1, 2], [3, 4]] : Matrix Ex.K) [[5], [6]] = .par 2 1 ts) ∧
    (∀ r, (FieldMat.rightMulConc ([[1, 2], [3, 4]] : Matrix Ex.K) [[5], [6]]).Returns r ↔ r = .ok [[3], [4]]) ∧
    (∀ r, (FieldMat.rightMulConc ([[1, 2], [3]] : Matrix Ex.K) [[5], [6]]).Returns r ↔ r = .error .indexOutOfBounds) := by
  refine ⟨⟨_, rfl⟩, fun r => ?_, fun r => ?_⟩
  · rw [(C68_field_right_mul _ _ seqSched).2]
    exact Iff.of_eq (congrArg (r = ·) (by decide))
  · rw [(C68_field_right_mul _ _ seqSched).2]
    exact Iff.of_eq (congrArg (r = ·) (by decide))

end GS
