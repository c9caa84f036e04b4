import Verif.Model.Prove

/-!
# The verifier, src/verifier.rs

`sch` is the schedule of the single parallel product in each `verify`.
-/

namespace GS
variable {F G1 G2 GT : Type} [Field F] [AddCommGroup G1] [Module F G1] [AddCommGroup G2] [Module F G2]
  [AddCommGroup GT] [Module F GT] [DecidableEq GT]

/-- `PPE::verify`, src/verifier.rs:23-55. -/
def PPE.verify (e : G1 →ₗ[F] G2 →ₗ[F] GT) (sch : Scheduler) (self : PPE F G1 G2 GT)
    (com_proof : CProof F G1 G2) (crs : CRS G1 G2 GT) : Res Bool := do
  assertEq com_proof.equ_proofs.length 1
  let pf ← idx com_proof.equ_proofs 0
  assertEq self.getType pf.equ_type
  let is_parallel := true
  let lin_a_com_y ← ComT.pairingSum e (Com1.batchLinearMap self.a_consts) com_proof.ycoms.coms
  let com_x_lin_b ← ComT.pairingSum e com_proof.xcoms.coms (Com2.batchLinearMap self.b_consts)
  let stmt_com_y ← ComMat.leftMul sch (vecToColVec com_proof.ycoms.coms) self.gamma is_parallel
  let com_x_stmt_com_y ← ComT.pairingSum e com_proof.xcoms.coms (← colVecToVec stmt_com_y)
  let lin_t := ComT.linearMapPPE self.target
  let com1_pf2 ← ComT.pairingSum e crs.u pf.pi
  let pf1_com2 ← ComT.pairingSum e pf.theta crs.v
  let lhs := lin_a_com_y + com_x_lin_b + com_x_stmt_com_y
  let rhs := lin_t + com1_pf2 + pf1_com2
  pure (ComT.eq lhs rhs)

/-- `MSMEG1::verify`, src/verifier.rs:57-89. -/
def MSMEG1.verify (e : G1 →ₗ[F] G2 →ₗ[F] GT) (sch : Scheduler) (self : MSMEG1 F G1)
    (com_proof : CProof F G1 G2) (crs : CRS G1 G2 GT) : Res Bool := do
  assertEq com_proof.equ_proofs.length 1
  let pf ← idx com_proof.equ_proofs 0
  assertEq self.getType pf.equ_type
  let is_parallel := true
  let lin_a_com_y ← ComT.pairingSum e (Com1.batchLinearMap self.a_consts) com_proof.ycoms.coms
  let com_x_lin_b ← ComT.pairingSum e com_proof.xcoms.coms
    (← Com2.batchScalarLinearMap self.b_consts crs)
  let stmt_com_y ← ComMat.leftMul sch (vecToColVec com_proof.ycoms.coms) self.gamma is_parallel
  let com_x_stmt_com_y ← ComT.pairingSum e com_proof.xcoms.coms (← colVecToVec stmt_com_y)
  let lin_t ← ComT.linearMapMSMEG1 e self.target crs
  let com1_pf2 ← ComT.pairingSum e crs.u pf.pi
  let pf1_com2 := ComT.pairing e (← idx pf.theta 0) (← idx crs.v 0)
  let lhs := lin_a_com_y + com_x_lin_b + com_x_stmt_com_y
  let rhs := lin_t + com1_pf2 + pf1_com2
  pure (ComT.eq lhs rhs)

/-- `MSMEG2::verify`, src/verifier.rs:91-123. -/
def MSMEG2.verify (e : G1 →ₗ[F] G2 →ₗ[F] GT) (sch : Scheduler) (self : MSMEG2 F G2)
    (com_proof : CProof F G1 G2) (crs : CRS G1 G2 GT) : Res Bool := do
  assertEq com_proof.equ_proofs.length 1
  let pf ← idx com_proof.equ_proofs 0
  assertEq self.getType pf.equ_type
  let is_parallel := true
  let lin_a_com_y ← ComT.pairingSum e (← Com1.batchScalarLinearMap self.a_consts crs)
    com_proof.ycoms.coms
  let com_x_lin_b ← ComT.pairingSum e com_proof.xcoms.coms (Com2.batchLinearMap self.b_consts)
  let stmt_com_y ← ComMat.leftMul sch (vecToColVec com_proof.ycoms.coms) self.gamma is_parallel
  let com_x_stmt_com_y ← ComT.pairingSum e com_proof.xcoms.coms (← colVecToVec stmt_com_y)
  let lin_t ← ComT.linearMapMSMEG2 e self.target crs
  let com1_pf2 := ComT.pairing e (← idx crs.u 0) (← idx pf.pi 0)
  let pf1_com2 ← ComT.pairingSum e pf.theta crs.v
  let lhs := lin_a_com_y + com_x_lin_b + com_x_stmt_com_y
  let rhs := lin_t + com1_pf2 + pf1_com2
  pure (ComT.eq lhs rhs)

/-- `QuadEqu::verify`, src/verifier.rs:125-157. -/
def QuadEqu.verify (e : G1 →ₗ[F] G2 →ₗ[F] GT) (sch : Scheduler) (self : QuadEqu F)
    (com_proof : CProof F G1 G2) (crs : CRS G1 G2 GT) : Res Bool := do
  assertEq com_proof.equ_proofs.length 1
  let pf ← idx com_proof.equ_proofs 0
  assertEq self.getType pf.equ_type
  let is_parallel := true
  let lin_a_com_y ← ComT.pairingSum e (← Com1.batchScalarLinearMap self.a_consts crs)
    com_proof.ycoms.coms
  let com_x_lin_b ← ComT.pairingSum e com_proof.xcoms.coms
    (← Com2.batchScalarLinearMap self.b_consts crs)
  let stmt_com_y ← ComMat.leftMul sch (vecToColVec com_proof.ycoms.coms) self.gamma is_parallel
  let com_x_stmt_com_y ← ComT.pairingSum e com_proof.xcoms.coms (← colVecToVec stmt_com_y)
  let lin_t ← ComT.linearMapQuad e self.target crs
  let com1_pf2 := ComT.pairing e (← idx crs.u 0) (← idx pf.pi 0)
  let pf1_com2 := ComT.pairing e (← idx pf.theta 0) (← idx crs.v 0)
  let lhs := lin_a_com_y + com_x_lin_b + com_x_stmt_com_y
  let rhs := lin_t + com1_pf2 + pf1_com2
  pure (ComT.eq lhs rhs)

end GS
