import Verif.Model.Commit
import Verif.Model.Statement

/-!
# The prover, src/prover/prove.rs

`is_parallel` is `true` in all four `prove` functions.  The argument `sch : Nat → Scheduler` gives
the schedule of each parallel product, numbered in program order.
Note that `Matrix<F>` and `Matrix<Com>` methods of the same name are told apart by type in Rust and by
namespace (`FieldMat`, `ComMat`) here.
-/

namespace GS

/-- `EquProof`, src/prover/prove.rs:54-61. -/
structure EquProof (F G1 G2 : Type) where
  pi : List (Com G2)
  theta : List (Com G1)
  equ_type : EquType
  rand : Matrix F

/-- `CProof`, src/prover/prove.rs:63-69. -/
structure CProof (F G1 G2 : Type) where
  xcoms : Commit F G1
  ycoms : Commit F G2
  equ_proofs : List (EquProof F G1 G2)

variable {F G1 G2 GT : Type} [Field F] [AddCommGroup G1] [Module F G1] [AddCommGroup G2] [Module F G2]
variable {ρ : Type} [Rng ρ F G1 G2]

/-- `PPE::prove`, src/prover/prove.rs:92-171. -/
def PPE.prove (sch : Nat → Scheduler) (self : PPE F G1 G2 GT) (xvars : List G1) (yvars : List G2)
    (xcoms : Commit F G1) (ycoms : Commit F G2) (crs : CRS G1 G2 GT) (rng : ρ) :
    Res (EquProof F G1 G2 × ρ) := do
  assertEq xvars.length xcoms.rand.length
  assertEq self.gamma.length xcoms.rand.length
  assertEq (← idx xcoms.rand 0).length 2
  assertEq yvars.length ycoms.rand.length
  assertEq (← idx self.gamma 0).length ycoms.rand.length
  assertEq (← idx ycoms.rand 0).length 2
  let is_parallel := true
  let x_rand_trans ← FieldMat.transpose xcoms.rand
  let y_rand_trans ← FieldMat.transpose ycoms.rand
  let (t00, rng) := Rng.randF (F := F) G1 G2 rng
  let (t01, rng) := Rng.randF (F := F) G1 G2 rng
  let (t10, rng) := Rng.randF (F := F) G1 G2 rng
  let (t11, rng) := Rng.randF (F := F) G1 G2 rng
  let pf_rand : Matrix F := [[t00, t01], [t10, t11]]
  let x_rand_lin_b ← ComMat.leftMul (sch 0) (vecToColVec (Com2.batchLinearMap self.b_consts))
    x_rand_trans is_parallel
  let x_rand_stmt ← FieldMat.rightMul (sch 1) x_rand_trans self.gamma is_parallel
  let x_rand_stmt_lin_y ← ComMat.leftMul (sch 2) (vecToColVec (Com2.batchLinearMap yvars))
    x_rand_stmt is_parallel
  let pf_rand_stmt ← FieldMat.add
    (← FieldMat.rightMul (sch 4) (← FieldMat.rightMul (sch 3) x_rand_trans self.gamma is_parallel)
      ycoms.rand is_parallel)
    (← FieldMat.neg (← FieldMat.transpose pf_rand))
  let pf_rand_stmt_com2 ← ComMat.leftMul (sch 5) (vecToColVec crs.v) pf_rand_stmt is_parallel
  let pi ← colVecToVec (← ComMat.add (← ComMat.add x_rand_lin_b x_rand_stmt_lin_y) pf_rand_stmt_com2)
  assertEq pi.length 2
  let y_rand_lin_a ← ComMat.leftMul (sch 6) (vecToColVec (Com1.batchLinearMap self.a_consts))
    y_rand_trans is_parallel
  let y_rand_stmt ← FieldMat.rightMul (sch 7) y_rand_trans (← FieldMat.transpose self.gamma) is_parallel
  let y_rand_stmt_lin_x ← ComMat.leftMul (sch 8) (vecToColVec (Com1.batchLinearMap xvars))
    y_rand_stmt is_parallel
  let pf_rand_com1 ← ComMat.leftMul (sch 9) (vecToColVec crs.u) pf_rand is_parallel
  let theta ← colVecToVec (← ComMat.add (← ComMat.add y_rand_lin_a y_rand_stmt_lin_x) pf_rand_com1)
  assertEq theta.length 2
  pure (⟨pi, theta, .PairingProduct, pf_rand⟩, rng)

/-- `PPE::commit_and_prove`, src/prover/prove.rs:72-90. -/
def PPE.commitAndProve (sch : Nat → Scheduler) (self : PPE F G1 G2 GT) (xvars : List G1)
    (yvars : List G2) (crs : CRS G1 G2 GT) (rng : ρ) : Res (CProof F G1 G2 × ρ) := do
  let (xcoms, rng) ← batchCommitG1 (F := F) xvars crs rng
  let (ycoms, rng) ← batchCommitG2 (F := F) yvars crs rng
  let (pf, rng) ← self.prove sch xvars yvars xcoms ycoms crs rng
  pure (⟨xcoms, ycoms, [pf]⟩, rng)

/-- `MSMEG1::prove`, src/prover/prove.rs:195-274. -/
def MSMEG1.prove (sch : Nat → Scheduler) (self : MSMEG1 F G1) (xvars : List G1)
    (scalar_yvars : List F) (xcoms : Commit F G1) (scalar_ycoms : Commit F G2)
    (crs : CRS G1 G2 GT) (rng : ρ) : Res (EquProof F G1 G2 × ρ) := do
  assertEq xvars.length xcoms.rand.length
  assertEq self.gamma.length xcoms.rand.length
  assertEq (← idx xcoms.rand 0).length 2
  assertEq scalar_yvars.length scalar_ycoms.rand.length
  assertEq (← idx self.gamma 0).length scalar_ycoms.rand.length
  assertEq (← idx scalar_ycoms.rand 0).length 1
  let is_parallel := true
  let x_rand_trans ← FieldMat.transpose xcoms.rand
  let y_rand_trans ← FieldMat.transpose scalar_ycoms.rand
  let (t00, rng) := Rng.randF (F := F) G1 G2 rng
  let (t01, rng) := Rng.randF (F := F) G1 G2 rng
  let pf_rand : Matrix F := [[t00, t01]]
  let x_rand_lin_b ← ComMat.leftMul (sch 0)
    (vecToColVec (← Com2.batchScalarLinearMap self.b_consts crs)) x_rand_trans is_parallel
  let x_rand_stmt ← FieldMat.rightMul (sch 1) x_rand_trans self.gamma is_parallel
  let x_rand_stmt_lin_y ← ComMat.leftMul (sch 2)
    (vecToColVec (← Com2.batchScalarLinearMap scalar_yvars crs)) x_rand_stmt is_parallel
  let pf_rand_stmt ← FieldMat.add
    (← FieldMat.rightMul (sch 4) (← FieldMat.rightMul (sch 3) x_rand_trans self.gamma is_parallel)
      scalar_ycoms.rand is_parallel)
    (← FieldMat.neg (← FieldMat.transpose pf_rand))
  let v1 : Matrix (Com G2) := [[← idx crs.v 0]]
  let pf_rand_stmt_com2 ← ComMat.leftMul (sch 5) v1 pf_rand_stmt is_parallel
  let pi ← colVecToVec (← ComMat.add (← ComMat.add x_rand_lin_b x_rand_stmt_lin_y) pf_rand_stmt_com2)
  assertEq pi.length 2
  let y_rand_lin_a ← ComMat.leftMul (sch 6) (vecToColVec (Com1.batchLinearMap self.a_consts))
    y_rand_trans is_parallel
  let y_rand_stmt ← FieldMat.rightMul (sch 7) y_rand_trans (← FieldMat.transpose self.gamma) is_parallel
  let y_rand_stmt_lin_x ← ComMat.leftMul (sch 8) (vecToColVec (Com1.batchLinearMap xvars))
    y_rand_stmt is_parallel
  let pf_rand_com1 ← ComMat.leftMul (sch 9) (vecToColVec crs.u) pf_rand is_parallel
  let theta ← colVecToVec (← ComMat.add (← ComMat.add y_rand_lin_a y_rand_stmt_lin_x) pf_rand_com1)
  assertEq theta.length 1
  pure (⟨pi, theta, .MultiScalarG1, pf_rand⟩, rng)

/-- `MSMEG1::commit_and_prove`, src/prover/prove.rs:175-193. -/
def MSMEG1.commitAndProve (sch : Nat → Scheduler) (self : MSMEG1 F G1) (xvars : List G1)
    (scalar_yvars : List F) (crs : CRS G1 G2 GT) (rng : ρ) : Res (CProof F G1 G2 × ρ) := do
  let (xcoms, rng) ← batchCommitG1 (F := F) xvars crs rng
  let (scalar_ycoms, rng) ← batchCommitScalarToB2 scalar_yvars crs rng
  let (pf, rng) ← self.prove sch xvars scalar_yvars xcoms scalar_ycoms crs rng
  pure (⟨xcoms, scalar_ycoms, [pf]⟩, rng)

/-- `MSMEG2::prove`, src/prover/prove.rs:298-379. -/
def MSMEG2.prove (sch : Nat → Scheduler) (self : MSMEG2 F G2) (scalar_xvars : List F)
    (yvars : List G2) (scalar_xcoms : Commit F G1) (ycoms : Commit F G2)
    (crs : CRS G1 G2 GT) (rng : ρ) : Res (EquProof F G1 G2 × ρ) := do
  assertEq scalar_xvars.length scalar_xcoms.rand.length
  assertEq self.gamma.length scalar_xcoms.rand.length
  assertEq (← idx scalar_xcoms.rand 0).length 1
  assertEq yvars.length ycoms.rand.length
  assertEq (← idx self.gamma 0).length ycoms.rand.length
  assertEq (← idx ycoms.rand 0).length 2
  let is_parallel := true
  let x_rand_trans ← FieldMat.transpose scalar_xcoms.rand
  let y_rand_trans ← FieldMat.transpose ycoms.rand
  let (t00, rng) := Rng.randF (F := F) G1 G2 rng
  let (t10, rng) := Rng.randF (F := F) G1 G2 rng
  let pf_rand : Matrix F := [[t00], [t10]]
  let x_rand_lin_b ← ComMat.leftMul (sch 0) (vecToColVec (Com2.batchLinearMap self.b_consts))
    x_rand_trans is_parallel
  let x_rand_stmt ← FieldMat.rightMul (sch 1) x_rand_trans self.gamma is_parallel
  let x_rand_stmt_lin_y ← ComMat.leftMul (sch 2) (vecToColVec (Com2.batchLinearMap yvars))
    x_rand_stmt is_parallel
  let pf_rand_stmt ← FieldMat.add
    (← FieldMat.rightMul (sch 4) (← FieldMat.rightMul (sch 3) x_rand_trans self.gamma is_parallel)
      ycoms.rand is_parallel)
    (← FieldMat.neg (← FieldMat.transpose pf_rand))
  let pf_rand_stmt_com2 ← ComMat.leftMul (sch 5) (vecToColVec crs.v) pf_rand_stmt is_parallel
  let pi ← colVecToVec (← ComMat.add (← ComMat.add x_rand_lin_b x_rand_stmt_lin_y) pf_rand_stmt_com2)
  assertEq pi.length 1
  let y_rand_lin_a ← ComMat.leftMul (sch 6)
    (vecToColVec (← Com1.batchScalarLinearMap self.a_consts crs)) y_rand_trans is_parallel
  let y_rand_stmt ← FieldMat.rightMul (sch 7) y_rand_trans (← FieldMat.transpose self.gamma) is_parallel
  let y_rand_stmt_lin_x ← ComMat.leftMul (sch 8)
    (vecToColVec (← Com1.batchScalarLinearMap scalar_xvars crs)) y_rand_stmt is_parallel
  let u1 : Matrix (Com G1) := [[← idx crs.u 0]]
  let pf_rand_com1 ← ComMat.leftMul (sch 9) u1 pf_rand is_parallel
  let theta ← colVecToVec (← ComMat.add (← ComMat.add y_rand_lin_a y_rand_stmt_lin_x) pf_rand_com1)
  assertEq theta.length 2
  pure (⟨pi, theta, .MultiScalarG2, pf_rand⟩, rng)

/-- `MSMEG2::commit_and_prove`, src/prover/prove.rs:278-296. -/
def MSMEG2.commitAndProve (sch : Nat → Scheduler) (self : MSMEG2 F G2) (scalar_xvars : List F)
    (yvars : List G2) (crs : CRS G1 G2 GT) (rng : ρ) : Res (CProof F G1 G2 × ρ) := do
  let (scalar_xcoms, rng) ← batchCommitScalarToB1 scalar_xvars crs rng
  let (ycoms, rng) ← batchCommitG2 (F := F) yvars crs rng
  let (pf, rng) ← self.prove sch scalar_xvars yvars scalar_xcoms ycoms crs rng
  pure (⟨scalar_xcoms, ycoms, [pf]⟩, rng)

/-- `QuadEqu::prove`, src/prover/prove.rs:409-488. -/
def QuadEqu.prove (sch : Nat → Scheduler) (self : QuadEqu F) (scalar_xvars scalar_yvars : List F)
    (scalar_xcoms : Commit F G1) (scalar_ycoms : Commit F G2)
    (crs : CRS G1 G2 GT) (rng : ρ) : Res (EquProof F G1 G2 × ρ) := do
  assertEq scalar_xvars.length scalar_xcoms.rand.length
  assertEq self.gamma.length scalar_xcoms.rand.length
  assertEq (← idx scalar_xcoms.rand 0).length 1
  assertEq scalar_yvars.length scalar_ycoms.rand.length
  assertEq (← idx self.gamma 0).length scalar_ycoms.rand.length
  assertEq (← idx scalar_ycoms.rand 0).length 1
  let is_parallel := true
  let x_rand_trans ← FieldMat.transpose scalar_xcoms.rand
  let y_rand_trans ← FieldMat.transpose scalar_ycoms.rand
  let (t00, rng) := Rng.randF (F := F) G1 G2 rng
  let pf_rand : Matrix F := [[t00]]
  let x_rand_lin_b ← ComMat.leftMul (sch 0)
    (vecToColVec (← Com2.batchScalarLinearMap self.b_consts crs)) x_rand_trans is_parallel
  let x_rand_stmt ← FieldMat.rightMul (sch 1) x_rand_trans self.gamma is_parallel
  let x_rand_stmt_lin_y ← ComMat.leftMul (sch 2)
    (vecToColVec (← Com2.batchScalarLinearMap scalar_yvars crs)) x_rand_stmt is_parallel
  let pf_rand_stmt ← FieldMat.add
    (← FieldMat.rightMul (sch 4) (← FieldMat.rightMul (sch 3) x_rand_trans self.gamma is_parallel)
      scalar_ycoms.rand is_parallel)
    (← FieldMat.neg (← FieldMat.transpose pf_rand))
  let v1 : Matrix (Com G2) := [[← idx crs.v 0]]
  let pf_rand_stmt_com2 ← ComMat.leftMul (sch 5) v1 pf_rand_stmt is_parallel
  let pi ← colVecToVec (← ComMat.add (← ComMat.add x_rand_lin_b x_rand_stmt_lin_y) pf_rand_stmt_com2)
  assertEq pi.length 1
  let y_rand_lin_a ← ComMat.leftMul (sch 6)
    (vecToColVec (← Com1.batchScalarLinearMap self.a_consts crs)) y_rand_trans is_parallel
  let y_rand_stmt ← FieldMat.rightMul (sch 7) y_rand_trans (← FieldMat.transpose self.gamma) is_parallel
  let y_rand_stmt_lin_x ← ComMat.leftMul (sch 8)
    (vecToColVec (← Com1.batchScalarLinearMap scalar_xvars crs)) y_rand_stmt is_parallel
  let u1 : Matrix (Com G1) := [[← idx crs.u 0]]
  let pf_rand_com1 ← ComMat.leftMul (sch 9) u1 pf_rand is_parallel
  let theta ← colVecToVec (← ComMat.add (← ComMat.add y_rand_lin_a y_rand_stmt_lin_x) pf_rand_com1)
  assertEq theta.length 1
  pure (⟨pi, theta, .Quadratic, pf_rand⟩, rng)

/-- `QuadEqu::commit_and_prove`, src/prover/prove.rs:383-408. -/
def QuadEqu.commitAndProve (sch : Nat → Scheduler) (self : QuadEqu F)
    (scalar_xvars scalar_yvars : List F) (crs : CRS G1 G2 GT) (rng : ρ) :
    Res (CProof F G1 G2 × ρ) := do
  let (scalar_xcoms, rng) ← batchCommitScalarToB1 scalar_xvars crs rng
  let (scalar_ycoms, rng) ← batchCommitScalarToB2 scalar_yvars crs rng
  let (pf, rng) ← self.prove sch scalar_xvars scalar_yvars scalar_xcoms scalar_ycoms crs rng
  pure (⟨scalar_xcoms, scalar_ycoms, [pf]⟩, rng)

end GS
