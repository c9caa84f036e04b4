import Verif.Model.TowerPoint
import Verif.Spec.Tower

/-! # What Jacobian coordinates in words stand for -/

namespace GS.Tower

/-- The Jacobian coordinates that are held. -/
def valJ {R S : Type} (φ : R → S) (P : Projective R) : Projective S := ⟨φ P.x, φ P.y, φ P.z⟩

end GS.Tower
