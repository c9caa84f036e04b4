import Verif.Spec.Hiding
import Verif.Spec.Crs
import Mathlib.Algebra.BigOperators.Expect
import Mathlib.Data.Real.Basic

/-!
# Experiments with uniform draws

`𝔼 x, f x` is the average of `f` over a finite type, so it is the acceptance probability of a distinguisher `f` with
values in `[0, 1]` when `x` is uniform.
-/

open scoped BigOperators

namespace GS

section ddh
variable (F : Type) {G : Type} [Field F] [AddCommGroup G] [Module F G] [Fintype F] [Fintype G]

/-- `A` on `(p, a p, t p, t a p)`. -/
noncomputable def ddhReal (A : G → G → G → G → ℝ) : ℝ :=
  𝔼 p : G, 𝔼 a : F, 𝔼 t : F, A p (a • p) (t • p) (t • a • p)

/-- `A` on `(p, a p, t p, z p)`. -/
noncomputable def ddhRand (A : G → G → G → G → ℝ) : ℝ :=
  𝔼 p : G, 𝔼 a : F, 𝔼 t : F, 𝔼 z : F, A p (a • p) (t • p) (z • p)

/-- Advantage of `A` against the decisional Diffie-Hellman problem in `G`. -/
noncomputable def ddhAdv (A : G → G → G → G → ℝ) : ℝ := |ddhReal F A - ddhRand F A|

end ddh

variable {F G1 G2 GT : Type} [Field F] [AddCommGroup G1] [Module F G1] [AddCommGroup G2] [Module F G2]
  [AddCommGroup GT] [Module F GT] [Fintype F] [Fintype G1] [Fintype G2] (e : G1 →ₗ[F] G2 →ₗ[F] GT)

/-- The random number generator reading group elements and scalars from given lists. -/
instance listsRng {F G1 G2 : Type} [Zero F] [Zero G1] [Zero G2] : Rng (List G1 × List G2 × List F) F G1 G2 where
  randF s := (s.2.2.headD 0, s.1, s.2.1, s.2.2.tail)
  randG1 s := (s.1.headD 0, s.1.tail, s.2.1, s.2.2)
  randG2 s := (s.2.1.headD 0, s.1, s.2.1.tail, s.2.2)

/-- Average of `D` over the output of `generate_crs` for uniform draws. -/
noncomputable def bindingGame (D : CRS G1 G2 GT → ℝ) : ℝ :=
  𝔼 p1 : G1, 𝔼 p2 : G2, 𝔼 a1 : F, 𝔼 a2 : F, 𝔼 t1 : F, 𝔼 t2 : F, D (generateCrs e ([p1], [p2], [a1, a2, t1, t2])).1

/-- Average of `D` over the CRS with simulated keys, and their trapdoors `t1` and `t2`, for uniform draws. -/
noncomputable def trapdoorGame (D : CRS G1 G2 GT → F → F → ℝ) : ℝ :=
  𝔼 p1 : G1, 𝔼 p2 : G2, 𝔼 a1 : F, 𝔼 a2 : F, 𝔼 t1 : F, 𝔼 t2 : F,
    D (assembleCrs e prepareSimulatedHidingKey p1 p2 a1 a2 t1 t2) t1 t2

/-- Average of `D` over the CRS with simulated keys for uniform draws. -/
noncomputable def hidingGame (D : CRS G1 G2 GT → ℝ) : ℝ := trapdoorGame e fun crs _ _ => D crs

/-- The CRS with given elements. -/
def crsOf (p1 q1 u1 w1 : G1) (p2 q2 u2 w2 : G2) : CRS G1 G2 GT :=
  ⟨[⟨p1, q1⟩, ⟨u1, w1⟩], [⟨p2, q2⟩, ⟨u2, w2⟩], p1, p2, e p1 p2⟩

/-- Reduction to DDH in `G1`: complete the challenge by a binding key in `G2`, and run `D`. -/
noncomputable def reduce1 (D : CRS G1 G2 GT → ℝ) (p q u w : G1) : ℝ :=
  𝔼 p2 : G2, 𝔼 a2 : F, 𝔼 t2 : F, D (crsOf e p q u w p2 (a2 • p2) (t2 • p2) (t2 • a2 • p2))

/-- Reduction to DDH in `G2`: complete the challenge by a hiding key in `G1`, and run `D`. -/
noncomputable def reduce2 (D : CRS G1 G2 GT → ℝ) (p q u w : G2) : ℝ :=
  𝔼 p1 : G1, 𝔼 a1 : F, 𝔼 t1 : F, D (crsOf e p1 (a1 • p1) (t1 • p1) (t1 • a1 • p1 - p1) p q u w)

/-- The last element of the challenge is lowered by the first one. -/
def lower {G : Type} [Sub G] (A : G → G → G → G → ℝ) (p q u w : G) : ℝ := A p q u (w - p)

/-- Sum of the advantages of the four reductions built from `D`. -/
noncomputable def sxdhAdv (D : CRS G1 G2 GT → ℝ) : ℝ :=
  ddhAdv F (reduce1 e D) + ddhAdv F (lower (reduce1 e D)) + ddhAdv F (reduce2 e D) + ddhAdv F (lower (reduce2 e D))

/-- Average of a distinguisher over the view of `run` with uniform tape. -/
noncomputable def viewGame {N : Nat} (run : List F → Res (CProof F G1 G2 × List F)) (D : Res (View G1 G2) → ℝ) : ℝ :=
  𝔼 t : Fin N → F, D (viewOn run t)

end GS
