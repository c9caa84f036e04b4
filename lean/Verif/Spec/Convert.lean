import Verif.Spec.Equation
import Verif.Spec.Accept

/-!
# Turning equations and proofs about scalars into equations and proofs about group elements

An equation with scalar variables `y` says the same about the group elements `y g2`, if its constants for these
variables are multiplied by `g2`, too. The proof is completed with one element that depends only on public values.
-/

namespace GS
variable {F G1 G2 GT : Type} [Field F] [AddCommGroup G1] [Module F G1] [AddCommGroup G2] [Module F G2]
  [AddCommGroup GT] [Module F GT] (crs : CRS G1 G2 GT)

/-- `Σ_j y_j A_j + Σ_i b_i X_i + Σ_ij γ_ij y_j X_i = T`, paired with the generator of `G2`. -/
def MSMEG1.toPPE (e : G1 →ₗ[F] G2 →ₗ[F] GT) (equ : MSMEG1 F G1) : PPE F G1 G2 GT :=
  ⟨equ.a_consts, equ.b_consts.map (· • crs.g2_gen), equ.gamma, e equ.target crs.g2_gen⟩

/-- `Σ_j a_j Y_j + Σ_i x_i B_i + Σ_ij γ_ij x_i Y_j = T`, paired with the generator of `G1`. -/
def MSMEG2.toPPE (e : G1 →ₗ[F] G2 →ₗ[F] GT) (equ : MSMEG2 F G2) : PPE F G1 G2 GT :=
  ⟨equ.a_consts.map (· • crs.g1_gen), equ.b_consts, equ.gamma, e crs.g1_gen equ.target⟩

/-- `Σ_j a_j y_j + Σ_i x_i b_i + Σ_ij γ_ij x_i y_j = t`, multiplied with the generator of `G1`. -/
def QuadEqu.toMSMEG1 (equ : QuadEqu F) : MSMEG1 F G1 :=
  ⟨equ.a_consts.map (· • crs.g1_gen), equ.b_consts, equ.gamma, equ.target • crs.g1_gen⟩

/-- `Σ_j a_j y_j + Σ_i x_i b_i + Σ_ij γ_ij x_i y_j = t`, multiplied with the generator of `G2`. -/
def QuadEqu.toMSMEG2 (equ : QuadEqu F) : MSMEG2 F G2 :=
  ⟨equ.a_consts, equ.b_consts.map (· • crs.g2_gen), equ.gamma, equ.target • crs.g2_gen⟩

/-- The second element of `theta`: `(0, T) - Σ_i b_i c_i`. -/
def MSMEG1.toPPEProof (equ : MSMEG1 F G1) (c : List (Com G1)) (pf : EquProof F G1 G2) : EquProof F G1 G2 :=
  { pf with
    theta := pf.theta.take 1 ++ [emb equ.target - (List.zipWith (fun b c => b • c) equ.b_consts c).sum]
    equ_type := .PairingProduct }

/-- The second element of `pi`: `(0, T) - Σ_j a_j d_j`. -/
def MSMEG2.toPPEProof (equ : MSMEG2 F G2) (d : List (Com G2)) (pf : EquProof F G1 G2) : EquProof F G1 G2 :=
  { pf with
    pi := pf.pi.take 1 ++ [emb equ.target - (List.zipWith (fun a d => a • d) equ.a_consts d).sum]
    equ_type := .PairingProduct }

/-- The second element of `pi`: `t (v1 + (0, g2)) - Σ_j a_j d_j`. -/
def QuadEqu.toMSMEG1Proof (equ : QuadEqu F) (v1 : Com G2) (d : List (Com G2)) (pf : EquProof F G1 G2) : EquProof F G1 G2 :=
  { pf with
    pi := pf.pi.take 1 ++ [equ.target • (v1 + emb crs.g2_gen) - (List.zipWith (fun a d => a • d) equ.a_consts d).sum]
    equ_type := .MultiScalarG1 }

/-- The second element of `theta`: `t (u1 + (0, g1)) - Σ_i b_i c_i`. -/
def QuadEqu.toMSMEG2Proof (equ : QuadEqu F) (u1 : Com G1) (c : List (Com G1)) (pf : EquProof F G1 G2) : EquProof F G1 G2 :=
  { pf with
    theta := pf.theta.take 1 ++ [equ.target • (u1 + emb crs.g1_gen) - (List.zipWith (fun b c => b • c) equ.b_consts c).sum]
    equ_type := .MultiScalarG2 }

end GS
