import Verif.Model.Raw

/-!
# The prover on points that were never checked, src/prover/commit.rs and src/prover/prove.rs

The functions of `Verif/Model/Commit.lean` and `Verif/Model/Prove.lean` again, with no law assumed of the multiplication `•` of points by
scalars (see `Verif/Model/Raw.lean`). `C106_commit_agrees` and `C106_prove_agrees` show that these are those functions where `•` is a
module structure.
-/

namespace GS
variable {F G G1 G2 GT : Type} [Field F] [Add G] [Neg G] [Zero G] [SMul F G] [Add G1] [Neg G1] [Zero G1] [SMul F G1]
  [Add G2] [Neg G2] [Zero G2] [SMul F G2]
variable {ρ : Type} [Rng ρ F G1 G2]

namespace Raw

/-- `left_mul` with `is_parallel = false`, src/data_structures.rs:696-709, 728-742. -/
def leftMulSeq (self : Matrix (Com G)) (lhs : Matrix F) : Res (Matrix (Com G)) := do
  if isEmptyMat lhs then return []
  if isEmptyMat self then return []
  assertEq (← firstRowLen lhs) self.length
  let rowDim := lhs.length
  let colDim ← firstRowLen self
  seqGrid rowDim colDim fun i j => do
    let row ← idx lhs i
    let dim := self.length
    let terms ← collect (fun k => do pure (scalarMul (← idx2 self k j) (← idx row k))) (List.range dim)
    pure (rustSum terms)

/-- `commit_G1`, src/prover/commit.rs:58-75. -/
def commitG1 (xvar : G1) (key : CRS G1 G2 GT) (rng : ρ) : Res (Commit F G1 × ρ) := do
  let (r1, rng) := Rng.randF (F := F) G1 G2 rng
  let (r2, rng) := Rng.randF (F := F) G1 G2 rng
  let c := Com1.linearMap xvar
    + scalarMul (← idx2 (vecToColVec key.u) 0 0) r1
    + scalarMul (← idx2 (vecToColVec key.u) 1 0) r2
  pure (⟨[c], [[r1, r2]]⟩, rng)

/-- `batch_commit_G1`, src/prover/commit.rs:77-100. -/
def batchCommitG1 (xvars : List G1) (key : CRS G1 G2 GT) (rng : ρ) : Res (Commit F G1 × ρ) := do
  let m := xvars.length
  let (R, rng) := drawRows2 (Rng.randF (F := F) G1 G2) m rng
  let lin_x := vecToColVec (Com1.batchLinearMap xvars)
  let ru ← leftMulSeq (vecToColVec key.u) R
  let coms ← ComMat.add lin_x ru
  pure (⟨← colVecToVec coms, R⟩, rng)

/-- `commit_scalar_to_B1`, src/prover/commit.rs:102-122. -/
def commitScalarToB1 (scalar_xvar : F) (key : CRS G1 G2 GT) (rng : ρ) : Res (Commit F G1 × ρ) := do
  let (r, rng) := Rng.randF (F := F) G1 G2 rng
  let c := (← scalarLinearMap1 scalar_xvar key)
    + scalarMul (← idx2 (vecToColVec key.u) 0 0) r
  pure (⟨[c], [[r]]⟩, rng)

/-- `batch_commit_scalar_to_B1`, src/prover/commit.rs:124-156. -/
def batchCommitScalarToB1 (scalar_xvars : List F) (key : CRS G1 G2 GT) (rng : ρ) :
    Res (Commit F G1 × ρ) := do
  let mprime := scalar_xvars.length
  let (r, rng) := drawRows1 (Rng.randF (F := F) G1 G2) mprime rng
  let slin_x := vecToColVec (← collect (fun x => scalarLinearMap1 x key) scalar_xvars)
  let ru := vecToColVec (← collect (fun sca => do
    pure (scalarMul (← idx2 (vecToColVec key.u) 0 0) sca)) (← colVecToVec r))
  let coms ← ComMat.add slin_x ru
  pure (⟨← colVecToVec coms, r⟩, rng)

/-- `commit_G2`, src/prover/commit.rs:158-175. -/
def commitG2 (yvar : G2) (key : CRS G1 G2 GT) (rng : ρ) : Res (Commit F G2 × ρ) := do
  let (s1, rng) := Rng.randF (F := F) G1 G2 rng
  let (s2, rng) := Rng.randF (F := F) G1 G2 rng
  let d := Com2.linearMap yvar
    + scalarMul (← idx2 (vecToColVec key.v) 0 0) s1
    + scalarMul (← idx2 (vecToColVec key.v) 1 0) s2
  pure (⟨[d], [[s1, s2]]⟩, rng)

/-- `batch_commit_G2`, src/prover/commit.rs:177-200. -/
def batchCommitG2 (yvars : List G2) (key : CRS G1 G2 GT) (rng : ρ) : Res (Commit F G2 × ρ) := do
  let n := yvars.length
  let (S, rng) := drawRows2 (Rng.randF (F := F) G1 G2) n rng
  let lin_y := vecToColVec (Com2.batchLinearMap yvars)
  let sv ← leftMulSeq (vecToColVec key.v) S
  let coms ← ComMat.add lin_y sv
  pure (⟨← colVecToVec coms, S⟩, rng)

/-- `commit_scalar_to_B2`, src/prover/commit.rs:202-222. -/
def commitScalarToB2 (scalar_yvar : F) (key : CRS G1 G2 GT) (rng : ρ) : Res (Commit F G2 × ρ) := do
  let (s, rng) := Rng.randF (F := F) G1 G2 rng
  let d := (← scalarLinearMap2 scalar_yvar key)
    + scalarMul (← idx2 (vecToColVec key.v) 0 0) s
  pure (⟨[d], [[s]]⟩, rng)

/-- `batch_commit_scalar_to_B2`, src/prover/commit.rs:224-256. -/
def batchCommitScalarToB2 (scalar_yvars : List F) (key : CRS G1 G2 GT) (rng : ρ) :
    Res (Commit F G2 × ρ) := do
  let nprime := scalar_yvars.length
  let (s, rng) := drawRows1 (Rng.randF (F := F) G1 G2) nprime rng
  let slin_y := vecToColVec (← collect (fun x => scalarLinearMap2 x key) scalar_yvars)
  let sv := vecToColVec (← collect (fun sca => do
    pure (scalarMul (← idx2 (vecToColVec key.v) 0 0) sca)) (← colVecToVec s))
  let coms ← ComMat.add slin_y sv
  pure (⟨← colVecToVec coms, s⟩, rng)

end Raw

open Raw

/-- `PPE::prove`, src/prover/prove.rs:92-171. -/
def PPE.proveRaw (sch : Nat → Scheduler) (self : PPE F G1 G2 GT) (xvars : List G1) (yvars : List G2)
    (xcoms : Commit F G1) (ycoms : Commit F G2) (crs : CRS G1 G2 GT) (rng : ρ) :
    Res (EquProof F G1 G2 × ρ) := do
  assertEq xvars.length xcoms.rand.length
  assertEq self.gamma.length xcoms.rand.length
  assertEq (← idx xcoms.rand 0).length 2
  assertEq yvars.length ycoms.rand.length
  assertEq (← idx self.gamma 0).length ycoms.rand.length
  assertEq (← idx ycoms.rand 0).length 2
  let is_parallel := true
  let x_rand_trans ← FieldMat.transpose xcoms.rand
  let y_rand_trans ← FieldMat.transpose ycoms.rand
  let (t00, rng) := Rng.randF (F := F) G1 G2 rng
  let (t01, rng) := Rng.randF (F := F) G1 G2 rng
  let (t10, rng) := Rng.randF (F := F) G1 G2 rng
  let (t11, rng) := Rng.randF (F := F) G1 G2 rng
  let pf_rand : Matrix F := [[t00, t01], [t10, t11]]
  let x_rand_lin_b ← Raw.leftMul (sch 0) (vecToColVec (Com2.batchLinearMap self.b_consts))
    x_rand_trans
  let x_rand_stmt ← FieldMat.rightMul (sch 1) x_rand_trans self.gamma is_parallel
  let x_rand_stmt_lin_y ← Raw.leftMul (sch 2) (vecToColVec (Com2.batchLinearMap yvars))
    x_rand_stmt
  let pf_rand_stmt ← FieldMat.add
    (← FieldMat.rightMul (sch 4) (← FieldMat.rightMul (sch 3) x_rand_trans self.gamma is_parallel)
      ycoms.rand is_parallel)
    (← FieldMat.neg (← FieldMat.transpose pf_rand))
  let pf_rand_stmt_com2 ← Raw.leftMul (sch 5) (vecToColVec crs.v) pf_rand_stmt
  let pi ← colVecToVec (← ComMat.add (← ComMat.add x_rand_lin_b x_rand_stmt_lin_y) pf_rand_stmt_com2)
  assertEq pi.length 2
  let y_rand_lin_a ← Raw.leftMul (sch 6) (vecToColVec (Com1.batchLinearMap self.a_consts))
    y_rand_trans
  let y_rand_stmt ← FieldMat.rightMul (sch 7) y_rand_trans (← FieldMat.transpose self.gamma) is_parallel
  let y_rand_stmt_lin_x ← Raw.leftMul (sch 8) (vecToColVec (Com1.batchLinearMap xvars))
    y_rand_stmt
  let pf_rand_com1 ← Raw.leftMul (sch 9) (vecToColVec crs.u) pf_rand
  let theta ← colVecToVec (← ComMat.add (← ComMat.add y_rand_lin_a y_rand_stmt_lin_x) pf_rand_com1)
  assertEq theta.length 2
  pure (⟨pi, theta, .PairingProduct, pf_rand⟩, rng)

/-- `PPE::commit_and_prove`, src/prover/prove.rs:72-90. -/
def PPE.commitAndProveRaw (sch : Nat → Scheduler) (self : PPE F G1 G2 GT) (xvars : List G1)
    (yvars : List G2) (crs : CRS G1 G2 GT) (rng : ρ) : Res (CProof F G1 G2 × ρ) := do
  let (xcoms, rng) ← Raw.batchCommitG1 (F := F) xvars crs rng
  let (ycoms, rng) ← Raw.batchCommitG2 (F := F) yvars crs rng
  let (pf, rng) ← self.proveRaw sch xvars yvars xcoms ycoms crs rng
  pure (⟨xcoms, ycoms, [pf]⟩, rng)

/-- `MSMEG1::prove`, src/prover/prove.rs:195-274. -/
def MSMEG1.proveRaw (sch : Nat → Scheduler) (self : MSMEG1 F G1) (xvars : List G1)
    (scalar_yvars : List F) (xcoms : Commit F G1) (scalar_ycoms : Commit F G2)
    (crs : CRS G1 G2 GT) (rng : ρ) : Res (EquProof F G1 G2 × ρ) := do
  assertEq xvars.length xcoms.rand.length
  assertEq self.gamma.length xcoms.rand.length
  assertEq (← idx xcoms.rand 0).length 2
  assertEq scalar_yvars.length scalar_ycoms.rand.length
  assertEq (← idx self.gamma 0).length scalar_ycoms.rand.length
  assertEq (← idx scalar_ycoms.rand 0).length 1
  let is_parallel := true
  let x_rand_trans ← FieldMat.transpose xcoms.rand
  let y_rand_trans ← FieldMat.transpose scalar_ycoms.rand
  let (t00, rng) := Rng.randF (F := F) G1 G2 rng
  let (t01, rng) := Rng.randF (F := F) G1 G2 rng
  let pf_rand : Matrix F := [[t00, t01]]
  let x_rand_lin_b ← Raw.leftMul (sch 0)
    (vecToColVec (← collect (fun x => scalarLinearMap2 x crs) self.b_consts)) x_rand_trans
  let x_rand_stmt ← FieldMat.rightMul (sch 1) x_rand_trans self.gamma is_parallel
  let x_rand_stmt_lin_y ← Raw.leftMul (sch 2)
    (vecToColVec (← collect (fun x => scalarLinearMap2 x crs) scalar_yvars)) x_rand_stmt
  let pf_rand_stmt ← FieldMat.add
    (← FieldMat.rightMul (sch 4) (← FieldMat.rightMul (sch 3) x_rand_trans self.gamma is_parallel)
      scalar_ycoms.rand is_parallel)
    (← FieldMat.neg (← FieldMat.transpose pf_rand))
  let v1 : Matrix (Com G2) := [[← idx crs.v 0]]
  let pf_rand_stmt_com2 ← Raw.leftMul (sch 5) v1 pf_rand_stmt
  let pi ← colVecToVec (← ComMat.add (← ComMat.add x_rand_lin_b x_rand_stmt_lin_y) pf_rand_stmt_com2)
  assertEq pi.length 2
  let y_rand_lin_a ← Raw.leftMul (sch 6) (vecToColVec (Com1.batchLinearMap self.a_consts))
    y_rand_trans
  let y_rand_stmt ← FieldMat.rightMul (sch 7) y_rand_trans (← FieldMat.transpose self.gamma) is_parallel
  let y_rand_stmt_lin_x ← Raw.leftMul (sch 8) (vecToColVec (Com1.batchLinearMap xvars))
    y_rand_stmt
  let pf_rand_com1 ← Raw.leftMul (sch 9) (vecToColVec crs.u) pf_rand
  let theta ← colVecToVec (← ComMat.add (← ComMat.add y_rand_lin_a y_rand_stmt_lin_x) pf_rand_com1)
  assertEq theta.length 1
  pure (⟨pi, theta, .MultiScalarG1, pf_rand⟩, rng)

/-- `MSMEG1::commit_and_prove`, src/prover/prove.rs:175-193. -/
def MSMEG1.commitAndProveRaw (sch : Nat → Scheduler) (self : MSMEG1 F G1) (xvars : List G1)
    (scalar_yvars : List F) (crs : CRS G1 G2 GT) (rng : ρ) : Res (CProof F G1 G2 × ρ) := do
  let (xcoms, rng) ← Raw.batchCommitG1 (F := F) xvars crs rng
  let (scalar_ycoms, rng) ← Raw.batchCommitScalarToB2 scalar_yvars crs rng
  let (pf, rng) ← self.proveRaw sch xvars scalar_yvars xcoms scalar_ycoms crs rng
  pure (⟨xcoms, scalar_ycoms, [pf]⟩, rng)

/-- `MSMEG2::prove`, src/prover/prove.rs:298-379. -/
def MSMEG2.proveRaw (sch : Nat → Scheduler) (self : MSMEG2 F G2) (scalar_xvars : List F)
    (yvars : List G2) (scalar_xcoms : Commit F G1) (ycoms : Commit F G2)
    (crs : CRS G1 G2 GT) (rng : ρ) : Res (EquProof F G1 G2 × ρ) := do
  assertEq scalar_xvars.length scalar_xcoms.rand.length
  assertEq self.gamma.length scalar_xcoms.rand.length
  assertEq (← idx scalar_xcoms.rand 0).length 1
  assertEq yvars.length ycoms.rand.length
  assertEq (← idx self.gamma 0).length ycoms.rand.length
  assertEq (← idx ycoms.rand 0).length 2
  let is_parallel := true
  let x_rand_trans ← FieldMat.transpose scalar_xcoms.rand
  let y_rand_trans ← FieldMat.transpose ycoms.rand
  let (t00, rng) := Rng.randF (F := F) G1 G2 rng
  let (t10, rng) := Rng.randF (F := F) G1 G2 rng
  let pf_rand : Matrix F := [[t00], [t10]]
  let x_rand_lin_b ← Raw.leftMul (sch 0) (vecToColVec (Com2.batchLinearMap self.b_consts))
    x_rand_trans
  let x_rand_stmt ← FieldMat.rightMul (sch 1) x_rand_trans self.gamma is_parallel
  let x_rand_stmt_lin_y ← Raw.leftMul (sch 2) (vecToColVec (Com2.batchLinearMap yvars))
    x_rand_stmt
  let pf_rand_stmt ← FieldMat.add
    (← FieldMat.rightMul (sch 4) (← FieldMat.rightMul (sch 3) x_rand_trans self.gamma is_parallel)
      ycoms.rand is_parallel)
    (← FieldMat.neg (← FieldMat.transpose pf_rand))
  let pf_rand_stmt_com2 ← Raw.leftMul (sch 5) (vecToColVec crs.v) pf_rand_stmt
  let pi ← colVecToVec (← ComMat.add (← ComMat.add x_rand_lin_b x_rand_stmt_lin_y) pf_rand_stmt_com2)
  assertEq pi.length 1
  let y_rand_lin_a ← Raw.leftMul (sch 6)
    (vecToColVec (← collect (fun x => scalarLinearMap1 x crs) self.a_consts)) y_rand_trans
  let y_rand_stmt ← FieldMat.rightMul (sch 7) y_rand_trans (← FieldMat.transpose self.gamma) is_parallel
  let y_rand_stmt_lin_x ← Raw.leftMul (sch 8)
    (vecToColVec (← collect (fun x => scalarLinearMap1 x crs) scalar_xvars)) y_rand_stmt
  let u1 : Matrix (Com G1) := [[← idx crs.u 0]]
  let pf_rand_com1 ← Raw.leftMul (sch 9) u1 pf_rand
  let theta ← colVecToVec (← ComMat.add (← ComMat.add y_rand_lin_a y_rand_stmt_lin_x) pf_rand_com1)
  assertEq theta.length 2
  pure (⟨pi, theta, .MultiScalarG2, pf_rand⟩, rng)

/-- `MSMEG2::commit_and_prove`, src/prover/prove.rs:278-296. -/
def MSMEG2.commitAndProveRaw (sch : Nat → Scheduler) (self : MSMEG2 F G2) (scalar_xvars : List F)
    (yvars : List G2) (crs : CRS G1 G2 GT) (rng : ρ) : Res (CProof F G1 G2 × ρ) := do
  let (scalar_xcoms, rng) ← Raw.batchCommitScalarToB1 scalar_xvars crs rng
  let (ycoms, rng) ← Raw.batchCommitG2 (F := F) yvars crs rng
  let (pf, rng) ← self.proveRaw sch scalar_xvars yvars scalar_xcoms ycoms crs rng
  pure (⟨scalar_xcoms, ycoms, [pf]⟩, rng)

/-- `QuadEqu::prove`, src/prover/prove.rs:409-488. -/
def QuadEqu.proveRaw (sch : Nat → Scheduler) (self : QuadEqu F) (scalar_xvars scalar_yvars : List F)
    (scalar_xcoms : Commit F G1) (scalar_ycoms : Commit F G2)
    (crs : CRS G1 G2 GT) (rng : ρ) : Res (EquProof F G1 G2 × ρ) := do
  assertEq scalar_xvars.length scalar_xcoms.rand.length
  assertEq self.gamma.length scalar_xcoms.rand.length
  assertEq (← idx scalar_xcoms.rand 0).length 1
  assertEq scalar_yvars.length scalar_ycoms.rand.length
  assertEq (← idx self.gamma 0).length scalar_ycoms.rand.length
  assertEq (← idx scalar_ycoms.rand 0).length 1
  let is_parallel := true
  let x_rand_trans ← FieldMat.transpose scalar_xcoms.rand
  let y_rand_trans ← FieldMat.transpose scalar_ycoms.rand
  let (t00, rng) := Rng.randF (F := F) G1 G2 rng
  let pf_rand : Matrix F := [[t00]]
  let x_rand_lin_b ← Raw.leftMul (sch 0)
    (vecToColVec (← collect (fun x => scalarLinearMap2 x crs) self.b_consts)) x_rand_trans
  let x_rand_stmt ← FieldMat.rightMul (sch 1) x_rand_trans self.gamma is_parallel
  let x_rand_stmt_lin_y ← Raw.leftMul (sch 2)
    (vecToColVec (← collect (fun x => scalarLinearMap2 x crs) scalar_yvars)) x_rand_stmt
  let pf_rand_stmt ← FieldMat.add
    (← FieldMat.rightMul (sch 4) (← FieldMat.rightMul (sch 3) x_rand_trans self.gamma is_parallel)
      scalar_ycoms.rand is_parallel)
    (← FieldMat.neg (← FieldMat.transpose pf_rand))
  let v1 : Matrix (Com G2) := [[← idx crs.v 0]]
  let pf_rand_stmt_com2 ← Raw.leftMul (sch 5) v1 pf_rand_stmt
  let pi ← colVecToVec (← ComMat.add (← ComMat.add x_rand_lin_b x_rand_stmt_lin_y) pf_rand_stmt_com2)
  assertEq pi.length 1
  let y_rand_lin_a ← Raw.leftMul (sch 6)
    (vecToColVec (← collect (fun x => scalarLinearMap1 x crs) self.a_consts)) y_rand_trans
  let y_rand_stmt ← FieldMat.rightMul (sch 7) y_rand_trans (← FieldMat.transpose self.gamma) is_parallel
  let y_rand_stmt_lin_x ← Raw.leftMul (sch 8)
    (vecToColVec (← collect (fun x => scalarLinearMap1 x crs) scalar_xvars)) y_rand_stmt
  let u1 : Matrix (Com G1) := [[← idx crs.u 0]]
  let pf_rand_com1 ← Raw.leftMul (sch 9) u1 pf_rand
  let theta ← colVecToVec (← ComMat.add (← ComMat.add y_rand_lin_a y_rand_stmt_lin_x) pf_rand_com1)
  assertEq theta.length 1
  pure (⟨pi, theta, .Quadratic, pf_rand⟩, rng)

/-- `QuadEqu::commit_and_prove`, src/prover/prove.rs:383-408. -/
def QuadEqu.commitAndProveRaw (sch : Nat → Scheduler) (self : QuadEqu F)
    (scalar_xvars scalar_yvars : List F) (crs : CRS G1 G2 GT) (rng : ρ) :
    Res (CProof F G1 G2 × ρ) := do
  let (scalar_xcoms, rng) ← Raw.batchCommitScalarToB1 scalar_xvars crs rng
  let (scalar_ycoms, rng) ← Raw.batchCommitScalarToB2 scalar_yvars crs rng
  let (pf, rng) ← self.proveRaw sch scalar_xvars scalar_yvars scalar_xcoms scalar_ycoms crs rng
  pure (⟨scalar_xcoms, scalar_ycoms, [pf]⟩, rng)

end GS
