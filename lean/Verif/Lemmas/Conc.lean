import Verif.Model.Conc
import Verif.Lemmas.Basic
import Mathlib.Order.WellFounded
import Mathlib.Algebra.BigOperators.Group.Finset.Basic
import Mathlib.Algebra.Order.BigOperators.Group.Finset

/-! Every interleaving of the steps of a parallel product gives the result of the sequential product. -/

set_option linter.unusedSectionVars false

namespace GS
variable {β : Type} [Zero β] [Add β]

/-- The rest of the summation loop. -/
def evalTerms : List (Res β) → β → Res β
  | [], a => .ok a
  | .ok b :: ts, a => evalTerms ts (a + b)
  | .error p :: _, _ => .error p

theorem evalTerms_collect {α : Type} (f : α → Res β) (l : List α) (a : β) :
    evalTerms (l.map f) a = (do let t ← collect f l; pure (t.foldl (fun a b => a + b) a)) := by
  induction l generalizing a with
  | nil => rfl
  | cons x l ih =>
    simp only [List.map_cons, collect]
    rcases f x with p | b
    · rfl
    · rw [evalTerms, ih]
      rcases collect f l with p | t <;> rfl

theorem evalTerms_sum {α : Type} (f : α → Res β) (l : List α) :
    evalTerms (l.map f) 0 = (do let t ← collect f l; pure (rustSum t)) := evalTerms_collect f l 0

/-! ### Safety -/

def Cell.Inv (ts : List (Res β)) : Cell β → Prop
  | .waiting => True
  | .running ts' acc => evalTerms ts' acc = evalTerms ts 0
  | .done b => evalTerms ts 0 = .ok b
  | .panicked p => evalTerms ts 0 = .error p

def Row.Inv (n : Nat) (ts : Nat → List (Res β)) : Row β → Prop
  | .waiting => True
  | .running cells => ∀ j < n, (cells j).Inv (ts j)
  | .done row => ∃ f, row = (List.range n).map f ∧ ∀ j < n, evalTerms (ts j) 0 = .ok (f j)
  | .panicked p => ∃ j < n, evalTerms (ts j) 0 = .error p

theorem CellStep.inv {ts : List (Res β)} {c c' : Cell β} (h : CellStep ts c c') (hc : c.Inv ts) : c'.Inv ts := by
  cases h with
  | start => rfl
  | add b ts' acc => simpa only [Cell.Inv, evalTerms] using hc
  | panic p ts' acc => simpa only [Cell.Inv, evalTerms] using hc.symm
  | finish acc => simpa only [Cell.Inv, evalTerms] using hc.symm

theorem RowStep.inv {n : Nat} {ts : Nat → List (Res β)} {r r' : Row β} (h : RowStep n ts r r') (hr : r.Inv n ts) :
    r'.Inv n ts := by
  cases h with
  | start => exact fun _ _ => trivial
  | cell cells j c' hj h =>
    intro j' hj'
    by_cases hjj : j' = j
    · subst hjj
      rw [Function.update_self]
      exact h.inv (hr _ hj)
    · rw [Function.update_of_ne hjj]
      exact hr _ hj'
  | finish cells f h =>
    refine ⟨f, rfl, fun j hj => ?_⟩
    have := hr j hj
    rw [h j hj] at this
    exact this
  | panic cells j p hj h =>
    have := hr j hj
    rw [h] at this
    exact ⟨j, hj, this⟩

theorem reaches_inv {m n : Nat} {ts : Nat → Nat → List (Res β)} {c : Nat → Row β}
    (h : Relation.ReflTransGen (GridStep m n ts) gridStart c) : ∀ i, (c i).Inv n (ts i) := by
  induction h with
  | refl => exact fun _ => trivial
  | tail _ h ih =>
    cases h with
    | row i r' hi h =>
      intro i'
      by_cases hii : i' = i
      · subst hii
        rw [Function.update_self]
        exact h.inv (ih _)
      · rw [Function.update_of_ne hii]
        exact ih _

theorem outcome_ok {m n : Nat} {ts : Nat → Nat → List (Res β)} {c : Nat → Row β}
    (h : Relation.ReflTransGen (GridStep m n ts) gridStart c) {M : Matrix β} (ho : Outcome m c (.ok M)) :
    seqGrid m n (fun i j => evalTerms (ts i j) 0) = .ok M := by
  have inv := reaches_inv h
  cases ho with
  | finish f hf =>
    have : ∀ i : Fin m, ∃ g : Nat → β, f i = (List.range n).map g ∧ ∀ j < n, evalTerms (ts i j) 0 = .ok (g j) := fun i => by
      have := inv i
      rw [hf i i.2] at this
      exact this
    choose g hg hg' using this
    rw [seqGrid_iff]
    refine ⟨fun i j => g i j, ?_, fun i j => hg' i j j.2⟩
    apply List.ext_getElem (by simp [matOf])
    intro i h1 h2
    simp only [List.length_map, List.length_range] at h1
    simp only [List.getElem_map, List.getElem_range, matOf, List.getElem_ofFn]
    rw [hg ⟨i, h1⟩]
    apply List.ext_getElem (by simp)
    intro j h1 h2
    simp

theorem outcome_error {m n : Nat} {ts : Nat → Nat → List (Res β)} {c : Nat → Row β}
    (h : Relation.ReflTransGen (GridStep m n ts) gridStart c) {p : Panic} (ho : Outcome m c (.error p)) :
    ∃ i < m, ∃ j < n, evalTerms (ts i j) 0 = .error p := by
  have inv := reaches_inv h
  cases ho with
  | panic i p hi h =>
    have := inv i
    rw [h] at this
    exact ⟨i, hi, this⟩

/-! ### Termination -/

def Cell.size (ts : List (Res β)) : Cell β → Nat
  | .waiting => ts.length + 2
  | .running ts' _ => ts'.length + 1
  | _ => 0

def Row.size (n : Nat) (ts : Nat → List (Res β)) : Row β → Nat
  | .waiting => 2 + ∑ j ∈ Finset.range n, ((ts j).length + 2)
  | .running cells => 1 + ∑ j ∈ Finset.range n, (cells j).size (ts j)
  | _ => 0

def gridSize (m n : Nat) (ts : Nat → Nat → List (Res β)) (c : Nat → Row β) : Nat :=
  ∑ i ∈ Finset.range m, (c i).size n (ts i)

theorem CellStep.size_lt {ts : List (Res β)} {c c' : Cell β} (h : CellStep ts c c') : c'.size ts < c.size ts := by
  cases h <;> simp [Cell.size]

theorem RowStep.size_lt {n : Nat} {ts : Nat → List (Res β)} {r r' : Row β} (h : RowStep n ts r r') :
    r'.size n ts < r.size n ts := by
  cases h with
  | start => simp [Row.size, Cell.size]
  | cell cells j c' hj h =>
    simp only [Row.size]
    refine Nat.add_lt_add_left (Finset.sum_lt_sum (fun j' hj' => ?_) ⟨j, Finset.mem_range.mpr hj, ?_⟩) 1
    · by_cases hjj : j' = j
      · subst hjj; rw [Function.update_self]; exact h.size_lt.le
      · rw [Function.update_of_ne hjj]
    · rw [Function.update_self]; exact h.size_lt
  | finish cells f h => simp [Row.size]
  | panic cells j p hj h => simp [Row.size]

theorem GridStep.size_lt {m n : Nat} {ts : Nat → Nat → List (Res β)} {c c' : Nat → Row β} (h : GridStep m n ts c c') :
    gridSize m n ts c' < gridSize m n ts c := by
  cases h with
  | row i r' hi h =>
    refine Finset.sum_lt_sum (fun i' hi' => ?_) ⟨i, Finset.mem_range.mpr hi, ?_⟩
    · by_cases hii : i' = i
      · subst hii; rw [Function.update_self]; exact h.size_lt.le
      · rw [Function.update_of_ne hii]
    · rw [Function.update_self]; exact h.size_lt

theorem no_infinite_run {m n : Nat} {ts : Nat → Nat → List (Res β)} :
    ¬ ∃ run : Nat → Nat → Row β, run 0 = gridStart ∧ ∀ k, GridStep m n ts (run k) (run (k + 1)) := by
  rintro ⟨run, -, h⟩
  have : ∀ k, gridSize m n ts (run k) + k ≤ gridSize m n ts (run 0) := by
    intro k
    induction k with
    | zero => simp
    | succ k ih => have := (h k).size_lt; omega
  have := this (gridSize m n ts (run 0) + 1)
  omega

/-! ### Progress -/

theorem cell_progress (ts : List (Res β)) (c : Cell β) :
    (∃ c', CellStep ts c c') ∨ (∃ b, c = .done b) ∨ ∃ p, c = .panicked p := by
  rcases c with _ | ⟨_ | ⟨_ | b, ts'⟩, acc⟩ | b | p
  · exact Or.inl ⟨_, .start⟩
  · exact Or.inl ⟨_, .finish _⟩
  · exact Or.inl ⟨_, .panic _ _ _⟩
  · exact Or.inl ⟨_, .add _ _ _⟩
  · exact Or.inr (Or.inl ⟨_, rfl⟩)
  · exact Or.inr (Or.inr ⟨_, rfl⟩)

theorem row_progress (n : Nat) (ts : Nat → List (Res β)) (r : Row β) :
    (∃ r', RowStep n ts r r') ∨ (∃ l, r = .done l) ∨ ∃ p, r = .panicked p := by
  rcases r with _ | cells | l | p
  · exact Or.inl ⟨_, .start⟩
  · refine Or.inl ?_
    by_contra hno
    have h : ∀ j < n, ∃ b, cells j = .done b := by
      intro j hj
      rcases cell_progress (ts j) (cells j) with ⟨c', hc⟩ | h | ⟨p, hp⟩
      · exact absurd ⟨_, .cell cells j c' hj hc⟩ hno
      · exact h
      · exact absurd ⟨_, .panic cells j p hj hp⟩ hno
    have h' : ∀ j, ∃ b, j < n → cells j = .done b := fun j => by
      by_cases hj : j < n
      · obtain ⟨b, hb⟩ := h j hj; exact ⟨b, fun _ => hb⟩
      · exact ⟨0, fun h => absurd h hj⟩
    choose f hf using h'
    exact hno ⟨_, .finish cells f hf⟩
  · exact Or.inr (Or.inl ⟨_, rfl⟩)
  · exact Or.inr (Or.inr ⟨_, rfl⟩)

theorem grid_progress {m n : Nat} {ts : Nat → Nat → List (Res β)} {c : Nat → Row β}
    (hc : ∀ c', ¬ GridStep m n ts c c') : ∃ r, Outcome m c r := by
  have h : ∀ i < m, (∃ l, c i = .done l) ∨ ∃ p, c i = .panicked p := fun i hi => by
    rcases row_progress n (ts i) (c i) with ⟨r', hr⟩ | h
    · exact absurd (.row c i r' hi hr) (hc _)
    · exact h
  by_cases hp : ∃ i, i < m ∧ ∃ p, c i = .panicked p
  · obtain ⟨i, hi, p, hp⟩ := hp
    exact ⟨_, .panic i p hi hp⟩
  · have h' : ∀ i, ∃ l, i < m → c i = .done l := fun i => by
      by_cases hi : i < m
      · rcases h i hi with ⟨l, hl⟩ | hp'
        · exact ⟨l, fun _ => hl⟩
        · exact absurd ⟨i, hi, hp'⟩ hp
      · exact ⟨[], fun h => absurd h hi⟩
    choose f hf using h'
    exact ⟨_, .finish f hf⟩

/-- Some run comes to an end. -/
theorem exists_outcome {m n : Nat} {ts : Nat → Nat → List (Res β)} {c : Nat → Row β} :
    ∃ c', Relation.ReflTransGen (GridStep m n ts) c c' ∧ ∃ r, Outcome m c' r := by
  induction hk : gridSize m n ts c using Nat.strong_induction_on generalizing c with
  | _ k ih =>
    by_cases h : ∃ c', GridStep m n ts c c'
    · obtain ⟨c', hc⟩ := h
      obtain ⟨c'', h1, h2⟩ := ih _ (hk ▸ hc.size_lt) rfl
      exact ⟨c'', .head hc h1, h2⟩
    · exact ⟨c, .refl, grid_progress fun c' hc => h ⟨c', hc⟩⟩

theorem par_terminates (m n : Nat) (ts : Nat → Nat → List (Res β)) : (Conc.par m n ts).Terminates :=
  ⟨no_infinite_run, fun _ _ h => grid_progress h⟩

theorem seqGrid_panics {m n : Nat} {f : Nat → Nat → Res β} {q : Panic} (hq : ∀ i j p, f i j = .error p → p = q)
    {i j : Nat} (hi : i < m) (hj : j < n) {p : Panic} (h : f i j = .error p) : seqGrid m n f = .error q := by
  rcases hs : seqGrid m n f with p' | M
  · congr 1
    have : ∀ {α γ : Type} (g : α → Res γ) (l : List α) (p : Panic), collect g l = .error p → ∃ x ∈ l, g x = .error p := by
      intro α γ g l
      induction l with
      | nil => intro p h; cases h
      | cons x l ih =>
        intro p h
        rw [collect] at h
        rcases hx : g x with p1 | b
        · rw [hx] at h; cases h; exact ⟨x, by simp, hx⟩
        · rcases hl : collect g l with p2 | bs
          · rw [hx, hl] at h; cases h
            obtain ⟨y, hy, h⟩ := ih _ hl
            exact ⟨y, by simp [hy], h⟩
          · rw [hx, hl] at h; cases h
    obtain ⟨x, -, hx⟩ := this _ _ _ hs
    obtain ⟨y, -, hy⟩ := this _ _ _ hx
    exact hq _ _ _ hy
  · obtain ⟨g, -, hg⟩ := seqGrid_iff.mp hs
    have := hg ⟨i, hi⟩ ⟨j, hj⟩
    simp only [h] at this
    cases this

theorem evalTerms_error {q p : Panic} {ts : List (Res β)} {a : β} (hq : ∀ p, .error p ∈ ts → p = q)
    (h : evalTerms ts a = .error p) : p = q := by
  induction ts generalizing a with
  | nil => cases h
  | cons t ts ih =>
    rcases t with p' | b
    · cases h; exact hq _ (by simp)
    · exact ih (fun p hp => hq p (by simp [hp])) h

theorem par_returns {m n : Nat} {ts : Nat → Nat → List (Res β)} {q : Panic} (hq : ∀ i j p, .error p ∈ ts i j → p = q)
    (r : Res (Matrix β)) : (Conc.par m n ts).Returns r ↔ r = seqGrid m n fun i j => evalTerms (ts i j) 0 := by
  have key : ∀ c r, Relation.ReflTransGen (GridStep m n ts) gridStart c → Outcome m c r →
      r = seqGrid m n fun i j => evalTerms (ts i j) 0 := by
    intro c r hc ho
    rcases r with p | M
    · obtain ⟨i, hi, j, hj, h⟩ := outcome_error hc ho
      rw [seqGrid_panics (f := fun i j => evalTerms (ts i j) 0) (fun i j p h => evalTerms_error (hq i j) h) hi hj h,
        evalTerms_error (hq i j) h]
    · exact (outcome_ok hc ho).symm
  constructor
  · rintro ⟨c, hc, ho⟩
    exact key c r hc ho
  · rintro rfl
    obtain ⟨c, hc, r, ho⟩ := exists_outcome (m := m) (n := n) (ts := ts) (c := gridStart)
    exact ⟨c, hc, key c r hc ho ▸ ho⟩

end GS
