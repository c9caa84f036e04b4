import Verif.Spec.Extract
import Verif.Spec.Hiding

/-!
# Coefficients of the variables

In an equation `A·y + x·B + x·Γy = t` the variable `x_i` is paired with `b_i + Σ_j Γ_ij y_j`, and `y_j` with
`a_j + Σ_i Γ_ij x_i`.
-/

namespace GS
variable {F A : Type} [Field F] [AddCommGroup A] [Module F A]

/-- `b_i + Σ_j Γ_ij y_j` for each `i`. -/
def rowFactors (b : List A) (gamma : Matrix F) (y : List A) : List A :=
  List.zipWith (fun b row => b + (List.zipWith (fun s y => s • y) row y).sum) b gamma

/-- `a_j + Σ_i Γ_ij x_i` for each `j`. -/
def colFactors (a : List A) (gamma : Matrix F) (x : List A) : List A :=
  a.mapIdx fun j a => a + (List.zipWith (fun row x => row.getD j 0 • x) gamma x).sum

end GS
