import Verif.Spec.Mirror

/-! # How often a result occurs -/

namespace GS
variable {F α : Type}

/-- The number of random tapes on which `view` returns `v`. -/
noncomputable def tapeCount {N : Nat} (view : (Fin N → F) → Res α) (v : α) : Nat := Nat.card {t : Fin N → F // view t = .ok v}

end GS
