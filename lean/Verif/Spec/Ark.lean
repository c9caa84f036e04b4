import Verif.Model.Ark
import Verif.Spec.Miller

/-! # Verifying with a pairing that may panic -/

namespace GS

/-- `Bls12_381::pairing` and `Bls12_381::multi_pairing`, src/data_structures.rs:484-502. -/
noncomputable def blsArk : ArkPairing (Affine (ZMod p381)) (Affine (Fq2 (ZMod p381))) (PairingOutput (ZMod p381)) := ⟨arkPairing, arkMultiPairing⟩

section
variable {F R1 R2 RT : Type} [Field F] [Add R1] [Neg R1] [Zero R1] [SMul F R1] [Add R2] [Neg R2] [Zero R2] [SMul F R2] [Add RT] [Zero RT] [DecidableEq RT]

/-- The verifier of the kind of the equation. -/
def OneEqu.verifyArk (pr : ArkPairing R1 R2 RT) (sch : Scheduler) (crs : CRS R1 R2 RT) (cp : CProof F R1 R2) : OneEqu F R1 R2 RT → ArkRes Bool
  | .ppe equ => equ.verifyArk pr sch cp crs
  | .msmeg1 equ => equ.verifyArk pr sch cp crs
  | .msmeg2 equ => equ.verifyArk pr sch cp crs
  | .quad equ => equ.verifyArk pr sch cp crs

end

end GS
