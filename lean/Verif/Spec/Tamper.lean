import Verif.Spec.Accept

/-! # What a verifier says about changed inputs; the coefficient of a commitment -/

namespace GS

/-- The call returns, and accepts exactly if `p`. -/
def AcceptsIff (x : Res Bool) (p : Prop) : Prop := ∃ b, x = .ok b ∧ (b = true ↔ p)

variable {F G : Type} [Field F] [AddCommGroup G] [Module F G]

/-- `b + Σ_j γ_ij d_j`, where `row` is row `i` of `γ`: what the commitment of `x_i` is paired with. -/
def coefX (b : Com G) (row : List F) (d : List (Com G)) : Com G := b + (List.zipWith (fun g y => g • y) row d).sum

/-- `a + Σ_i γ_ij c_i`: what the commitment of `y_j` is paired with. -/
def coefY (a : Com G) (gamma : Matrix F) (j : Nat) (c : List (Com G)) : Com G :=
  a + (List.zipWith (fun x row => row.getD j 0 • x) c gamma).sum

end GS
