import Verif.Spec.Games
import Verif.Spec.Sample
import Verif.Spec.Curve

/-!
# The CRS with generators drawn by the sampler of points

`bindingGame` draws the generators uniformly. Here they are drawn as the library does it (`SWCurve.rand`).
-/

open scoped BigOperators Classical

namespace GS
variable {F G1 G2 GT B1 B2 : Type} [Field F] [AddCommGroup G1] [Module F G1] [AddCommGroup G2] [Module F G2] [AddCommGroup GT] [Module F GT]
  [Fintype F] [Field B1] [DecidableEq B1] [Fintype B1] [Field B2] [DecidableEq B2] [Fintype B2]

/-- The point drawn with the coordinates and signs `w`. -/
def SWCurve.drawn {B G : Type} [Field B] [DecidableEq B] (E : SWCurve B) (clear : Affine B → G) {n : Nat} (w : Fin n → B × Bool) : Option G :=
  (E.rand listCoord listBit clear n (List.ofFn w)).map Prod.fst

/-- The curve has `r * k` points, `k` is the cofactor of the subgroup and not divisible by `r`, and `clear` multiplies by it. -/
structure SWCurve.Clears {B : Type} [Field B] [DecidableEq B] (E : SWCurve B) (r k : Nat) (clear : Affine B → E.torsion r) : Prop where
  tests : E.Tests r
  lawful : E.Lawful
  noOrderTwo : E.NoOrderTwo
  cofactor : ¬ r ∣ k
  card_points : Nat.card E.curve.Point = r * k
  clears : ∀ p, (clear (E.coords p)).1 = k • p

/-- Average of `D` over the output of `generate_crs` for uniform scalars, and for the uniform coordinates and signs, `n` of them for each generator,
with which both generators are found. -/
noncomputable def sampledGame (e : G1 →ₗ[F] G2 →ₗ[F] GT) (E1 : SWCurve B1) (clear1 : Affine B1 → G1) (E2 : SWCurve B2) (clear2 : Affine B2 → G2)
    (n : Nat) (D : CRS G1 G2 GT → ℝ) : ℝ :=
  (∑ w1 : Fin n → B1 × Bool, ∑ w2 : Fin n → B2 × Bool,
    match E1.drawn clear1 w1, E2.drawn clear2 w2 with
    | some p1, some p2 => 𝔼 a1 : F, 𝔼 a2 : F, 𝔼 t1 : F, 𝔼 t2 : F, D (generateCrs e ([p1], [p2], [a1, a2, t1, t2])).1
    | _, _ => 0) /
  Nat.card {w : (Fin n → B1 × Bool) × (Fin n → B2 × Bool) // E1.drawn clear1 w.1 ≠ none ∧ E2.drawn clear2 w.2 ≠ none}

end GS
