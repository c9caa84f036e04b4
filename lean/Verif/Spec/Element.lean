import Verif.Model.Element
import Verif.Spec.Encoding
import Verif.Spec.Raw

/-! # What is asked of base fields and curves -/

namespace GS
variable {B : Type}

/-- One string for each element, and one for each element and flag, all of the same sizes. -/
structure FieldCodec.Lawful [Zero B] (c : FieldCodec B) : Prop where
  plain : c.plain.Lawful
  canonical : c.plain.Canonical
  valid : ∀ x, c.plain.Valid x
  fixed : ∀ m x, c.plain.size m x = c.plain.size .Yes 0
  flags : ∀ bs x fl rest, c.deFlags bs = .ok ((x, fl), rest) ↔ bs = c.serFlags x fl ++ rest
  sizeFlags : ∀ x fl, (c.serFlags x fl).length = c.sizeFlags x
  fixedFlags : ∀ x, c.sizeFlags x = c.sizeFlags 0

/-- The square root is one, `≤` orders an element and its negative, the identity is in the subgroup. -/
structure SWCurve.Lawful [Field B] (E : SWCurve B) : Prop where
  root : ∀ v r, E.sqrt v = some r → r * r = v
  complete : ∀ v r, E.sqrt v = none → r * r ≠ v
  total : ∀ y, E.le y (-y) = true ∨ E.le (-y) y = true
  antisymm : ∀ y, E.le y (-y) = true → E.le (-y) y = true → y = -y
  identity : E.inSubgroup Affine.identity = true

/-- The representations of points: the identity, and pairs on the curve. -/
def SWCurve.proper [Field B] [DecidableEq B] (E : SWCurve B) (P : Affine B) : Bool :=
  decide (P = Affine.identity) || (!P.infinity && decide (P.y * P.y = P.x * P.x * P.x + E.a * P.x + E.b))

end GS
