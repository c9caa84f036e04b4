import Verif.Spec.Games

/-!
# Generators started from a random seed

`init s` is the state a random number generator is given by the seed `s` (e.g. `StdRng::seed_from_u64`); the seed is
uniform in a finite type.
-/

open scoped BigOperators

namespace GS
variable {F G G1 G2 Sd ρ : Type} [Field F] [Fintype Sd]

/-- The first `N` scalars drawn from the generator in state `s`. -/
def tapeOf (F G1 G2 : Type) [Field F] [Rng ρ F G1 G2] (N : Nat) (s : ρ) : Fin N → F :=
  fun i => (draws (F := F) G1 G2 N s).1.getD i 0

/-- How well the test `A` tells `N` scalars of the seeded generator from uniform ones. -/
noncomputable def prgAdv (G1 G2 : Type) [Fintype F] [Rng ρ F G1 G2] (init : Sd → ρ) {N : Nat} (A : (Fin N → F) → ℝ) : ℝ :=
  |(𝔼 s : Sd, A (tapeOf F G1 G2 N (init s))) - 𝔼 t : Fin N → F, A t|

/-- Average of a distinguisher over the view of `run` with the seeded generator. -/
noncomputable def seedGame (init : Sd → ρ) (run : ρ → Res (CProof F G1 G2 × ρ)) (D : Res (View G1 G2) → ℝ) : ℝ :=
  𝔼 s : Sd, D ((run (init s)).map fun r => r.1.publicPart)

/-- Average of a distinguisher over the commitments computed by `run` with the seeded generator. -/
noncomputable def seedComGame (init : Sd → ρ) (run : ρ → Res (Commit F G × ρ)) (D : Res (List (Com G)) → ℝ) : ℝ :=
  𝔼 s : Sd, D ((run (init s)).map fun r => r.1.coms)

end GS
