import Verif.Spec.Encoding
import Verif.Spec.Message

/-! # The encodings of a message, given those of its elements -/

namespace GS
variable {F G1 G2 : Type}

def CProof.In (RF : F → Bytes → Prop) (R1 : G1 → Bytes → Prop) (R2 : G2 → Bytes → Prop) (cp : CProof F G1 G2) (bs : Bytes) : Prop :=
  ∃ b0 b1 b2, bs = b0 ++ (b1 ++ b2) ∧ cp.xcoms.In RF R1 b0 ∧ cp.ycoms.In RF R2 b1 ∧ VecIn (EquProof.In RF R1 R2) cp.equ_proofs b2

end GS
