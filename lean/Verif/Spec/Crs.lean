import Verif.Model.Generator

/-! # The two kinds of common reference string -/

namespace GS
variable {F G1 G2 GT : Type} [Field F] [AddCommGroup G1] [Module F G1] [AddCommGroup G2] [Module F G2]
  [AddCommGroup GT] [Module F GT]

/-- `crs` is an output of `generate_crs` for some random number generator in some state. -/
def GeneratedCrs (e : G1 →ₗ[F] G2 →ₗ[F] GT) (crs : CRS G1 G2 GT) : Prop :=
  ∃ (ρ : Type) (_ : Rng ρ F G1 G2) (rng : ρ), crs = (generateCrs e rng).1

/-- `crs` is what `generate_crs` would return for some draws if it called
`prepare_simulated_hinding_key` instead of `prepare_real_binding_key`. -/
def SimulatedCrs (e : G1 →ₗ[F] G2 →ₗ[F] GT) (crs : CRS G1 G2 GT) : Prop :=
  ∃ (p1 : G1) (p2 : G2) (a1 a2 t1 t2 : F), crs = assembleCrs e prepareSimulatedHidingKey p1 p2 a1 a2 t1 t2

/-- Both generators of the CRS are different from the neutral element. -/
def CRS.NonzeroGens (crs : CRS G1 G2 GT) : Prop := crs.g1_gen ≠ 0 ∧ crs.g2_gen ≠ 0

end GS
