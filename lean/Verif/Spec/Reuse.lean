import Verif.Spec.Hiding
import Verif.Spec.Accept

/-! # Two commitments made from the same state of the random number generator -/

namespace GS
variable {F G : Type}

/-- The values of the commitments computed by two runs on the same tape. -/
def pairOn {N : Nat} (run run' : List F → Res (Commit F G × List F)) (t : Fin N → F) : Res (List (Com G) × List (Com G)) := do
  let c ← comsOn run t
  let c' ← comsOn run' t
  pure (c, c')

end GS
