import Verif.Model.Miller
import Verif.Spec.Coord

/-! # The pairing of BLS12-381 -/

namespace GS

/-- The pairing of coordinates, with 0 where the library panics. -/
noncomputable def blsPair (P : Affine (ZMod p381)) (Q : Affine (Fq2 (ZMod p381))) : PairingOutput (ZMod p381) := (arkPairing P Q).getD 0

end GS
