import Verif.Spec.Games
import Verif.Spec.Mirror

/-!
# Games about commitments
-/

open scoped BigOperators

namespace GS
variable {F G G1 G2 GT : Type} [Field F] [AddCommGroup G1] [Module F G1] [AddCommGroup G2] [Module F G2]
  [AddCommGroup GT] [Module F GT] [Fintype F] [Fintype G1] [Fintype G2] (e : G1 →ₗ[F] G2 →ₗ[F] GT)

/-- Average of a distinguisher over the commitments computed by `run` with uniform tape. -/
noncomputable def comGame {N : Nat} (run : List F → Res (Commit F G × List F)) (D : Res (List (Com G)) → ℝ) : ℝ :=
  𝔼 t : Fin N → F, D (comsOn run t)

/-- Sum of the advantages of the two reductions to DDH in `G1` built from `D`; each completes the challenge by a binding key
in `G2`. -/
noncomputable def ddhAdv1 (D : CRS G1 G2 GT → ℝ) : ℝ := ddhAdv F (reduce1 e D) + ddhAdv F (lower (reduce1 e D))

/-- The same with exchanged groups: reductions to DDH in `G2`, which complete the challenge by a binding key in `G1`. -/
noncomputable def ddhAdv2 (D : CRS G1 G2 GT → ℝ) : ℝ := ddhAdv1 e.flip fun crs => D crs.mirror

end GS
