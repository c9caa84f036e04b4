import Verif.Spec.Bls
import Verif.Spec.Message
import Mathlib.AlgebraicGeometry.EllipticCurve.Affine.Point
import Mathlib.Algebra.Module.ZMod

/-!
# Points with their group law

The representations of points in `Verif/Model/Element.lean`, and the points of Mathlib's Weierstrass curves, on which
addition is defined.
-/

namespace GS
variable {B : Type} [Field B] [DecidableEq B]

/-- The curve `y² = x³ + a x + b`. -/
def SWCurve.curve (E : SWCurve B) : WeierstrassCurve.Affine B := ⟨0, 0, 0, E.a, E.b⟩

/-- How a point is represented. -/
def SWCurve.coords (E : SWCurve B) : E.curve.Point → Affine B
  | .zero => Affine.identity
  | .some x y _ => ⟨x, y, false⟩

/-- The points killed by `r`. -/
def SWCurve.torsion (E : SWCurve B) (r : Nat) : AddSubgroup E.curve.Point := (nsmulAddMonoidHom r).ker

/-- Scalars modulo `r` act on them as integers. -/
instance (E : SWCurve B) (r : Nat) : Module (ZMod r) (E.torsion r) := AddCommGroup.zmodModule fun x => Subtype.ext x.2

/-- How an element of the subgroup is represented. -/
def SWCurve.rep (E : SWCurve B) (r : Nat) (x : E.torsion r) : Affine B := E.coords x.1

/-- The curve has no singular point, and its subgroup test accepts, among the points of the curve, those killed by `r`. -/
structure SWCurve.Tests (E : SWCurve B) (r : Nat) : Prop where
  smooth : (16 : B) * (4 * E.a ^ 3 + 27 * E.b ^ 2) ≠ 0
  test : ∀ p : E.curve.Point, E.inSubgroup (E.coords p) = true ↔ r • p = 0

/-- Every element of `H` has a representation, which is read back and is valid; what is read with validation represents
an element of `H`. -/
structure Represents {H R : Type} (c : Codec R) (j : H → R) : Prop where
  orderly : c.Orderly
  injective : Function.Injective j
  returns : ∀ m x, c.Returns m (j x)
  valid : ∀ x, c.Valid (j x)
  inside : ∀ m bs a rest, c.de m .Yes bs = .ok (a, rest) → ∃ x, j x = a

end GS
