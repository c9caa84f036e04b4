import Verif.Spec.Accept
import Verif.Spec.Hiding

/-!
# Exchanging the two source groups

The pairing with exchanged arguments is `e.flip`. An equation with variables `x`, `y`, constants `a`, `b` and matrix `γ`
becomes the equation with variables `y`, `x`, constants `b`, `a` and the transposed matrix.
-/

namespace GS
variable {F G1 G2 GT : Type}

/-- The CRS with exchanged sides. -/
def CRS.mirror (crs : CRS G1 G2 GT) : CRS G2 G1 GT := ⟨crs.v, crs.u, crs.g2_gen, crs.g1_gen, crs.gt_gen⟩

/-- The tag of the exchanged equation. -/
def EquType.mirror : EquType → EquType
  | .PairingProduct => .PairingProduct
  | .MultiScalarG1 => .MultiScalarG2
  | .MultiScalarG2 => .MultiScalarG1
  | .Quadratic => .Quadratic

/-- The proof with exchanged sides. -/
def EquProof.mirror (pf : EquProof F G1 G2) : EquProof F G2 G1 := ⟨pf.theta, pf.pi, pf.equ_type.mirror, pf.rand⟩

/-- Commitments and proofs with exchanged sides. -/
def CProof.mirror (cp : CProof F G1 G2) : CProof F G2 G1 := ⟨cp.ycoms, cp.xcoms, cp.equ_proofs.map EquProof.mirror⟩

/-- `π`, `θ` and the tag of a proof with exchanged sides. -/
def mirrorElements (p : List (Com G1) × List (Com G2) × EquType) : List (Com G2) × List (Com G1) × EquType :=
  (p.2.1, p.1, p.2.2.mirror)

/-- What a verifier sees, with exchanged sides. -/
def mirrorView (v : View G2 G1) : View G1 G2 := (v.2.1, v.1, v.2.2.map mirrorElements)

/-- `π`, `θ` and the tag of the proof computed by `run` on the tape `t`. -/
def proofOn {N : Nat} (run : List F → Res (EquProof F G1 G2 × List F)) (t : Fin N → F) :
    Res (List (Com G2) × List (Com G1) × EquType) :=
  (run (List.ofFn t)).map fun r => (r.1.pi, r.1.theta, r.1.equ_type)

end GS
