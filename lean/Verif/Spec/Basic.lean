import Verif.Model.Basic

/-! # Specification vocabulary: returning normally, panicking, rectangular matrices -/

namespace GS
variable {α : Type}

/-- The call returns normally. -/
def Res.Ok (x : Res α) : Prop := ∃ a, x = .ok a

/-- The call panics. -/
def Res.Panics (x : Res α) : Prop := ∃ p, x = .error p

/-- `M` is an `m × n` matrix: `m` rows, each of length `n`. -/
def Rect (m n : Nat) (M : Matrix α) : Prop := M.length = m ∧ ∀ r ∈ M, r.length = n

end GS
