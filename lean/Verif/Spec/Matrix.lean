import Verif.Spec.Basic
import Mathlib.LinearAlgebra.Matrix.Defs

/-! # Specification vocabulary for matrices

Mathlib's matrices are the mathematical objects; `rows` writes one down as a list of rows. -/

namespace GS
variable {α β : Type}

/-- The list of rows of a mathematical `m × n` matrix. -/
def rows {m n : Nat} (A : _root_.Matrix (Fin m) (Fin n) α) : Matrix α :=
  List.ofFn fun i => List.ofFn fun j => A i j

/-- Length of the first row (0 if there are no rows). -/
def width : Matrix α → Nat
  | [] => 0
  | r :: _ => r.length

/-- Two calls have the same outcome: they return the same value or both panic. -/
def SameOutcome (x y : Res α) : Prop := (∀ a, x = .ok a ↔ y = .ok a) ∧ (x.Panics ↔ y.Panics)

/-- Two calls return normally, and the same value. -/
def BothReturn (x y : Res α) : Prop := ∃ a, x = .ok a ∧ y = .ok a

end GS
