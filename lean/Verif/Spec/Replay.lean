import Verif.Spec.Tape
import Mathlib.Algebra.BigOperators.Expect
import Mathlib.Data.Real.Basic

/-!
# The probability of an outcome of a randomised call
-/

open scoped BigOperators

namespace GS
variable {F : Type} [Fintype F]

open Classical in
/-- The probability that a call that draws `N` field elements returns a result for which `P` holds, when its draws are uniform
and independent. -/
noncomputable def chance {α : Type} (N : Nat) (call : List F → Res (α × List F)) (P : α → Prop) : ℝ :=
  𝔼 t : Fin N → F, if ∃ a rest, call (List.ofFn t) = .ok (a, rest) ∧ P a then 1 else 0

end GS
