import Verif.Model.Prove

/-!
# What survives a panic

`Res` forgets everything when a call panics.  A caller that catches the unwinding (`std::panic::catch_unwind`, a
thread that is joined) still owns the generator passed as `rng: &mut CR` and the commitments passed as `&mut self`
and `other: &mut Self`.  Here the functions of src/prover/commit.rs and src/prover/prove.rs are written again, in the
same order of operations, as functions that return what was behind the `&mut` references *also when they panic*.
`Verif/Props/Unwind.lean` shows that they agree with the functions of `Verif/Model/Commit.lean` and
`Verif/Model/Prove.lean`.
-/

namespace GS

/-- A call with a `&mut` argument of type `ρ`: it returns or panics, and in both cases leaves a value of type `ρ`
behind the reference. The `&mut` arguments are those of src/prover/commit.rs:43, 58 and
src/prover/prove.rs:36. -/
def Unw (ρ α : Type) := ρ → Res α × ρ

namespace Unw
variable {ρ α β : Type}

/-- Run the call. The `&mut` arguments are those of src/prover/commit.rs:43, 58 and
src/prover/prove.rs:36. -/
def run (x : Unw ρ α) (s : ρ) : Res α × ρ := x s

/-- The `&mut` arguments are those of src/prover/commit.rs:43, 58 and src/prover/prove.rs:36. -/
instance : Monad (Unw ρ) where
  pure a := fun s => (.ok a, s)
  bind x f := fun s =>
    match x s with
    | (.ok a, s) => f a s
    | (.error p, s) => (.error p, s)

/-- A computation that has no access to the `&mut` argument. The `&mut` arguments are those of
src/prover/commit.rs:43, 58 and src/prover/prove.rs:36. -/
def ofRes (r : Res α) : Unw ρ α := fun s => (r, s)

/-- The `&mut` arguments are those of src/prover/commit.rs:43, 58 and src/prover/prove.rs:36. -/
instance : MonadLift Res (Unw ρ) := ⟨ofRes⟩

/-- `*self` (read). The `&mut` arguments are those of src/prover/commit.rs:43, 58 and
src/prover/prove.rs:36. -/
def get : Unw ρ ρ := fun s => (.ok s, s)

/-- `*self = s`. The `&mut` arguments are those of src/prover/commit.rs:43, 58 and
src/prover/prove.rs:36. -/
def set (s : ρ) : Unw ρ Unit := fun _ => (.ok (), s)

/-- `E::ScalarField::rand(rng)`, e.g. src/prover/commit.rs:64. -/
def drawF {F G1 G2 : Type} [Rng ρ F G1 G2] : Unw ρ F := fun s =>
  let (a, s) := Rng.randF (F := F) G1 G2 s
  (.ok a, s)

/-- The loop drawing an `n × 2` matrix, src/prover/commit.rs:86-88 and 186-188. -/
def drawRows2 {F G1 G2 : Type} [Rng ρ F G1 G2] : Nat → Unw ρ (Matrix F)
  | 0 => pure []
  | n + 1 => do
    let a ← drawF (F := F) (G1 := G1) (G2 := G2)
    let b ← drawF (F := F) (G1 := G1) (G2 := G2)
    let l ← drawRows2 (F := F) (G1 := G1) (G2 := G2) n
    pure ([a, b] :: l)

/-- The loop drawing an `n × 1` matrix, src/prover/commit.rs:136-138 and 236-238. -/
def drawRows1 {F G1 G2 : Type} [Rng ρ F G1 G2] : Nat → Unw ρ (Matrix F)
  | 0 => pure []
  | n + 1 => do
    let a ← drawF (F := F) (G1 := G1) (G2 := G2)
    let l ← drawRows1 (F := F) (G1 := G1) (G2 := G2) n
    pure ([a] :: l)

end Unw

/-- `append`, src/prover/commit.rs:43-51, statement by statement on the pair `(*self, *other)`. -/
def Commit.appendU {F G : Type} : Unw (Commit F G × Commit F G) Unit := do
  let s ← Unw.get
  assertEq s.1.coms.length s.1.rand.length
  let s ← Unw.get
  assertEq s.2.coms.length s.2.rand.length
  -- `let mut otherComs: Vec<_> = other.coms.drain(..).collect();`
  let s ← Unw.get
  let otherComs := s.2.coms
  Unw.set (s.1, { s.2 with coms := [] })
  -- `let mut otherRand: Vec<_> = other.rand.drain(..).collect();`
  let s ← Unw.get
  let otherRand := s.2.rand
  Unw.set (s.1, { s.2 with rand := [] })
  -- `self.coms.append(&mut otherComs);`
  let s ← Unw.get
  Unw.set ({ s.1 with coms := s.1.coms ++ otherComs }, s.2)
  -- `self.rand.append(&mut otherRand);`
  let s ← Unw.get
  Unw.set ({ s.1 with rand := s.1.rand ++ otherRand }, s.2)

variable {F G1 G2 GT : Type} [Field F] [AddCommGroup G1] [Module F G1] [AddCommGroup G2] [Module F G2]
variable {ρ : Type} [Rng ρ F G1 G2]

/-- `commit_G1`, src/prover/commit.rs:58-75. -/
def commitG1U (xvar : G1) (key : CRS G1 G2 GT) : Unw ρ (Commit F G1) := do
  let r1 ← Unw.drawF (F := F) (G1 := G1) (G2 := G2)
  let r2 ← Unw.drawF (F := F) (G1 := G1) (G2 := G2)
  let c := Com1.linearMap xvar
    + (← idx2 (vecToColVec key.u) 0 0).scalarMul r1
    + (← idx2 (vecToColVec key.u) 1 0).scalarMul r2
  pure ⟨[c], [[r1, r2]]⟩

/-- `batch_commit_G1`, src/prover/commit.rs:77-100. -/
def batchCommitG1U (xvars : List G1) (key : CRS G1 G2 GT) : Unw ρ (Commit F G1) := do
  let m := xvars.length
  let R ← Unw.drawRows2 (F := F) (G1 := G1) (G2 := G2) m
  let lin_x := vecToColVec (Com1.batchLinearMap xvars)
  let ru ← ComMat.leftMul seqSched (vecToColVec key.u) R false
  let coms ← ComMat.add lin_x ru
  pure ⟨← colVecToVec coms, R⟩

/-- `commit_scalar_to_B1`, src/prover/commit.rs:102-122. -/
def commitScalarToB1U (scalar_xvar : F) (key : CRS G1 G2 GT) : Unw ρ (Commit F G1) := do
  let r ← Unw.drawF (F := F) (G1 := G1) (G2 := G2)
  let c := (← Com1.scalarLinearMap scalar_xvar key)
    + (← idx2 (vecToColVec key.u) 0 0).scalarMul r
  pure ⟨[c], [[r]]⟩

/-- `batch_commit_scalar_to_B1`, src/prover/commit.rs:124-156. -/
def batchCommitScalarToB1U (scalar_xvars : List F) (key : CRS G1 G2 GT) :
    Unw ρ (Commit F G1) := do
  let mprime := scalar_xvars.length
  let r ← Unw.drawRows1 (F := F) (G1 := G1) (G2 := G2) mprime
  let slin_x := vecToColVec (← Com1.batchScalarLinearMap scalar_xvars key)
  let ru := vecToColVec (← collect (fun sca => do
    pure ((← idx2 (vecToColVec key.u) 0 0).scalarMul sca)) (← colVecToVec r))
  let coms ← ComMat.add slin_x ru
  pure ⟨← colVecToVec coms, r⟩

/-- `commit_G2`, src/prover/commit.rs:158-175. -/
def commitG2U (yvar : G2) (key : CRS G1 G2 GT) : Unw ρ (Commit F G2) := do
  let s1 ← Unw.drawF (F := F) (G1 := G1) (G2 := G2)
  let s2 ← Unw.drawF (F := F) (G1 := G1) (G2 := G2)
  let d := Com2.linearMap yvar
    + (← idx2 (vecToColVec key.v) 0 0).scalarMul s1
    + (← idx2 (vecToColVec key.v) 1 0).scalarMul s2
  pure ⟨[d], [[s1, s2]]⟩

/-- `batch_commit_G2`, src/prover/commit.rs:177-200. -/
def batchCommitG2U (yvars : List G2) (key : CRS G1 G2 GT) : Unw ρ (Commit F G2) := do
  let n := yvars.length
  let S ← Unw.drawRows2 (F := F) (G1 := G1) (G2 := G2) n
  let lin_y := vecToColVec (Com2.batchLinearMap yvars)
  let sv ← ComMat.leftMul seqSched (vecToColVec key.v) S false
  let coms ← ComMat.add lin_y sv
  pure ⟨← colVecToVec coms, S⟩

/-- `commit_scalar_to_B2`, src/prover/commit.rs:202-222. -/
def commitScalarToB2U (scalar_yvar : F) (key : CRS G1 G2 GT) : Unw ρ (Commit F G2) := do
  let s ← Unw.drawF (F := F) (G1 := G1) (G2 := G2)
  let d := (← Com2.scalarLinearMap scalar_yvar key)
    + (← idx2 (vecToColVec key.v) 0 0).scalarMul s
  pure ⟨[d], [[s]]⟩

/-- `batch_commit_scalar_to_B2`, src/prover/commit.rs:224-256. -/
def batchCommitScalarToB2U (scalar_yvars : List F) (key : CRS G1 G2 GT) :
    Unw ρ (Commit F G2) := do
  let nprime := scalar_yvars.length
  let s ← Unw.drawRows1 (F := F) (G1 := G1) (G2 := G2) nprime
  let slin_y := vecToColVec (← Com2.batchScalarLinearMap scalar_yvars key)
  let sv := vecToColVec (← collect (fun sca => do
    pure ((← idx2 (vecToColVec key.v) 0 0).scalarMul sca)) (← colVecToVec s))
  let coms ← ComMat.add slin_y sv
  pure ⟨← colVecToVec coms, s⟩

/-- `PPE::prove`, src/prover/prove.rs:92-171. -/
def PPE.proveU (sch : Nat → Scheduler) (self : PPE F G1 G2 GT) (xvars : List G1) (yvars : List G2)
    (xcoms : Commit F G1) (ycoms : Commit F G2) (crs : CRS G1 G2 GT) :
    Unw ρ (EquProof F G1 G2) := do
  assertEq xvars.length xcoms.rand.length
  assertEq self.gamma.length xcoms.rand.length
  assertEq (← idx xcoms.rand 0).length 2
  assertEq yvars.length ycoms.rand.length
  assertEq (← idx self.gamma 0).length ycoms.rand.length
  assertEq (← idx ycoms.rand 0).length 2
  let is_parallel := true
  let x_rand_trans ← FieldMat.transpose xcoms.rand
  let y_rand_trans ← FieldMat.transpose ycoms.rand
  let t00 ← Unw.drawF (F := F) (G1 := G1) (G2 := G2)
  let t01 ← Unw.drawF (F := F) (G1 := G1) (G2 := G2)
  let t10 ← Unw.drawF (F := F) (G1 := G1) (G2 := G2)
  let t11 ← Unw.drawF (F := F) (G1 := G1) (G2 := G2)
  let pf_rand : Matrix F := [[t00, t01], [t10, t11]]
  let x_rand_lin_b ← ComMat.leftMul (sch 0) (vecToColVec (Com2.batchLinearMap self.b_consts))
    x_rand_trans is_parallel
  let x_rand_stmt ← FieldMat.rightMul (sch 1) x_rand_trans self.gamma is_parallel
  let x_rand_stmt_lin_y ← ComMat.leftMul (sch 2) (vecToColVec (Com2.batchLinearMap yvars))
    x_rand_stmt is_parallel
  let pf_rand_stmt ← FieldMat.add
    (← FieldMat.rightMul (sch 4) (← FieldMat.rightMul (sch 3) x_rand_trans self.gamma is_parallel)
      ycoms.rand is_parallel)
    (← FieldMat.neg (← FieldMat.transpose pf_rand))
  let pf_rand_stmt_com2 ← ComMat.leftMul (sch 5) (vecToColVec crs.v) pf_rand_stmt is_parallel
  let pi ← colVecToVec (← ComMat.add (← ComMat.add x_rand_lin_b x_rand_stmt_lin_y) pf_rand_stmt_com2)
  assertEq pi.length 2
  let y_rand_lin_a ← ComMat.leftMul (sch 6) (vecToColVec (Com1.batchLinearMap self.a_consts))
    y_rand_trans is_parallel
  let y_rand_stmt ← FieldMat.rightMul (sch 7) y_rand_trans (← FieldMat.transpose self.gamma) is_parallel
  let y_rand_stmt_lin_x ← ComMat.leftMul (sch 8) (vecToColVec (Com1.batchLinearMap xvars))
    y_rand_stmt is_parallel
  let pf_rand_com1 ← ComMat.leftMul (sch 9) (vecToColVec crs.u) pf_rand is_parallel
  let theta ← colVecToVec (← ComMat.add (← ComMat.add y_rand_lin_a y_rand_stmt_lin_x) pf_rand_com1)
  assertEq theta.length 2
  pure ⟨pi, theta, .PairingProduct, pf_rand⟩

/-- `PPE::commit_and_prove`, src/prover/prove.rs:72-90. -/
def PPE.commitAndProveU (sch : Nat → Scheduler) (self : PPE F G1 G2 GT) (xvars : List G1)
    (yvars : List G2) (crs : CRS G1 G2 GT) : Unw ρ (CProof F G1 G2) := do
  let xcoms ← batchCommitG1U (F := F) xvars crs
  let ycoms ← batchCommitG2U (F := F) yvars crs
  let pf ← self.proveU sch xvars yvars xcoms ycoms crs
  pure ⟨xcoms, ycoms, [pf]⟩

/-- `MSMEG1::prove`, src/prover/prove.rs:195-274. -/
def MSMEG1.proveU (sch : Nat → Scheduler) (self : MSMEG1 F G1) (xvars : List G1)
    (scalar_yvars : List F) (xcoms : Commit F G1) (scalar_ycoms : Commit F G2)
    (crs : CRS G1 G2 GT) : Unw ρ (EquProof F G1 G2) := do
  assertEq xvars.length xcoms.rand.length
  assertEq self.gamma.length xcoms.rand.length
  assertEq (← idx xcoms.rand 0).length 2
  assertEq scalar_yvars.length scalar_ycoms.rand.length
  assertEq (← idx self.gamma 0).length scalar_ycoms.rand.length
  assertEq (← idx scalar_ycoms.rand 0).length 1
  let is_parallel := true
  let x_rand_trans ← FieldMat.transpose xcoms.rand
  let y_rand_trans ← FieldMat.transpose scalar_ycoms.rand
  let t00 ← Unw.drawF (F := F) (G1 := G1) (G2 := G2)
  let t01 ← Unw.drawF (F := F) (G1 := G1) (G2 := G2)
  let pf_rand : Matrix F := [[t00, t01]]
  let x_rand_lin_b ← ComMat.leftMul (sch 0)
    (vecToColVec (← Com2.batchScalarLinearMap self.b_consts crs)) x_rand_trans is_parallel
  let x_rand_stmt ← FieldMat.rightMul (sch 1) x_rand_trans self.gamma is_parallel
  let x_rand_stmt_lin_y ← ComMat.leftMul (sch 2)
    (vecToColVec (← Com2.batchScalarLinearMap scalar_yvars crs)) x_rand_stmt is_parallel
  let pf_rand_stmt ← FieldMat.add
    (← FieldMat.rightMul (sch 4) (← FieldMat.rightMul (sch 3) x_rand_trans self.gamma is_parallel)
      scalar_ycoms.rand is_parallel)
    (← FieldMat.neg (← FieldMat.transpose pf_rand))
  let v1 : Matrix (Com G2) := [[← idx crs.v 0]]
  let pf_rand_stmt_com2 ← ComMat.leftMul (sch 5) v1 pf_rand_stmt is_parallel
  let pi ← colVecToVec (← ComMat.add (← ComMat.add x_rand_lin_b x_rand_stmt_lin_y) pf_rand_stmt_com2)
  assertEq pi.length 2
  let y_rand_lin_a ← ComMat.leftMul (sch 6) (vecToColVec (Com1.batchLinearMap self.a_consts))
    y_rand_trans is_parallel
  let y_rand_stmt ← FieldMat.rightMul (sch 7) y_rand_trans (← FieldMat.transpose self.gamma) is_parallel
  let y_rand_stmt_lin_x ← ComMat.leftMul (sch 8) (vecToColVec (Com1.batchLinearMap xvars))
    y_rand_stmt is_parallel
  let pf_rand_com1 ← ComMat.leftMul (sch 9) (vecToColVec crs.u) pf_rand is_parallel
  let theta ← colVecToVec (← ComMat.add (← ComMat.add y_rand_lin_a y_rand_stmt_lin_x) pf_rand_com1)
  assertEq theta.length 1
  pure ⟨pi, theta, .MultiScalarG1, pf_rand⟩

/-- `MSMEG1::commit_and_prove`, src/prover/prove.rs:175-193. -/
def MSMEG1.commitAndProveU (sch : Nat → Scheduler) (self : MSMEG1 F G1) (xvars : List G1)
    (scalar_yvars : List F) (crs : CRS G1 G2 GT) : Unw ρ (CProof F G1 G2) := do
  let xcoms ← batchCommitG1U (F := F) xvars crs
  let scalar_ycoms ← batchCommitScalarToB2U scalar_yvars crs
  let pf ← self.proveU sch xvars scalar_yvars xcoms scalar_ycoms crs
  pure ⟨xcoms, scalar_ycoms, [pf]⟩

/-- `MSMEG2::prove`, src/prover/prove.rs:298-379. -/
def MSMEG2.proveU (sch : Nat → Scheduler) (self : MSMEG2 F G2) (scalar_xvars : List F)
    (yvars : List G2) (scalar_xcoms : Commit F G1) (ycoms : Commit F G2)
    (crs : CRS G1 G2 GT) : Unw ρ (EquProof F G1 G2) := do
  assertEq scalar_xvars.length scalar_xcoms.rand.length
  assertEq self.gamma.length scalar_xcoms.rand.length
  assertEq (← idx scalar_xcoms.rand 0).length 1
  assertEq yvars.length ycoms.rand.length
  assertEq (← idx self.gamma 0).length ycoms.rand.length
  assertEq (← idx ycoms.rand 0).length 2
  let is_parallel := true
  let x_rand_trans ← FieldMat.transpose scalar_xcoms.rand
  let y_rand_trans ← FieldMat.transpose ycoms.rand
  let t00 ← Unw.drawF (F := F) (G1 := G1) (G2 := G2)
  let t10 ← Unw.drawF (F := F) (G1 := G1) (G2 := G2)
  let pf_rand : Matrix F := [[t00], [t10]]
  let x_rand_lin_b ← ComMat.leftMul (sch 0) (vecToColVec (Com2.batchLinearMap self.b_consts))
    x_rand_trans is_parallel
  let x_rand_stmt ← FieldMat.rightMul (sch 1) x_rand_trans self.gamma is_parallel
  let x_rand_stmt_lin_y ← ComMat.leftMul (sch 2) (vecToColVec (Com2.batchLinearMap yvars))
    x_rand_stmt is_parallel
  let pf_rand_stmt ← FieldMat.add
    (← FieldMat.rightMul (sch 4) (← FieldMat.rightMul (sch 3) x_rand_trans self.gamma is_parallel)
      ycoms.rand is_parallel)
    (← FieldMat.neg (← FieldMat.transpose pf_rand))
  let pf_rand_stmt_com2 ← ComMat.leftMul (sch 5) (vecToColVec crs.v) pf_rand_stmt is_parallel
  let pi ← colVecToVec (← ComMat.add (← ComMat.add x_rand_lin_b x_rand_stmt_lin_y) pf_rand_stmt_com2)
  assertEq pi.length 1
  let y_rand_lin_a ← ComMat.leftMul (sch 6)
    (vecToColVec (← Com1.batchScalarLinearMap self.a_consts crs)) y_rand_trans is_parallel
  let y_rand_stmt ← FieldMat.rightMul (sch 7) y_rand_trans (← FieldMat.transpose self.gamma) is_parallel
  let y_rand_stmt_lin_x ← ComMat.leftMul (sch 8)
    (vecToColVec (← Com1.batchScalarLinearMap scalar_xvars crs)) y_rand_stmt is_parallel
  let u1 : Matrix (Com G1) := [[← idx crs.u 0]]
  let pf_rand_com1 ← ComMat.leftMul (sch 9) u1 pf_rand is_parallel
  let theta ← colVecToVec (← ComMat.add (← ComMat.add y_rand_lin_a y_rand_stmt_lin_x) pf_rand_com1)
  assertEq theta.length 2
  pure ⟨pi, theta, .MultiScalarG2, pf_rand⟩

/-- `MSMEG2::commit_and_prove`, src/prover/prove.rs:278-296. -/
def MSMEG2.commitAndProveU (sch : Nat → Scheduler) (self : MSMEG2 F G2) (scalar_xvars : List F)
    (yvars : List G2) (crs : CRS G1 G2 GT) : Unw ρ (CProof F G1 G2) := do
  let scalar_xcoms ← batchCommitScalarToB1U scalar_xvars crs
  let ycoms ← batchCommitG2U (F := F) yvars crs
  let pf ← self.proveU sch scalar_xvars yvars scalar_xcoms ycoms crs
  pure ⟨scalar_xcoms, ycoms, [pf]⟩

/-- `QuadEqu::prove`, src/prover/prove.rs:409-488. -/
def QuadEqu.proveU (sch : Nat → Scheduler) (self : QuadEqu F) (scalar_xvars scalar_yvars : List F)
    (scalar_xcoms : Commit F G1) (scalar_ycoms : Commit F G2)
    (crs : CRS G1 G2 GT) : Unw ρ (EquProof F G1 G2) := do
  assertEq scalar_xvars.length scalar_xcoms.rand.length
  assertEq self.gamma.length scalar_xcoms.rand.length
  assertEq (← idx scalar_xcoms.rand 0).length 1
  assertEq scalar_yvars.length scalar_ycoms.rand.length
  assertEq (← idx self.gamma 0).length scalar_ycoms.rand.length
  assertEq (← idx scalar_ycoms.rand 0).length 1
  let is_parallel := true
  let x_rand_trans ← FieldMat.transpose scalar_xcoms.rand
  let y_rand_trans ← FieldMat.transpose scalar_ycoms.rand
  let t00 ← Unw.drawF (F := F) (G1 := G1) (G2 := G2)
  let pf_rand : Matrix F := [[t00]]
  let x_rand_lin_b ← ComMat.leftMul (sch 0)
    (vecToColVec (← Com2.batchScalarLinearMap self.b_consts crs)) x_rand_trans is_parallel
  let x_rand_stmt ← FieldMat.rightMul (sch 1) x_rand_trans self.gamma is_parallel
  let x_rand_stmt_lin_y ← ComMat.leftMul (sch 2)
    (vecToColVec (← Com2.batchScalarLinearMap scalar_yvars crs)) x_rand_stmt is_parallel
  let pf_rand_stmt ← FieldMat.add
    (← FieldMat.rightMul (sch 4) (← FieldMat.rightMul (sch 3) x_rand_trans self.gamma is_parallel)
      scalar_ycoms.rand is_parallel)
    (← FieldMat.neg (← FieldMat.transpose pf_rand))
  let v1 : Matrix (Com G2) := [[← idx crs.v 0]]
  let pf_rand_stmt_com2 ← ComMat.leftMul (sch 5) v1 pf_rand_stmt is_parallel
  let pi ← colVecToVec (← ComMat.add (← ComMat.add x_rand_lin_b x_rand_stmt_lin_y) pf_rand_stmt_com2)
  assertEq pi.length 1
  let y_rand_lin_a ← ComMat.leftMul (sch 6)
    (vecToColVec (← Com1.batchScalarLinearMap self.a_consts crs)) y_rand_trans is_parallel
  let y_rand_stmt ← FieldMat.rightMul (sch 7) y_rand_trans (← FieldMat.transpose self.gamma) is_parallel
  let y_rand_stmt_lin_x ← ComMat.leftMul (sch 8)
    (vecToColVec (← Com1.batchScalarLinearMap scalar_xvars crs)) y_rand_stmt is_parallel
  let u1 : Matrix (Com G1) := [[← idx crs.u 0]]
  let pf_rand_com1 ← ComMat.leftMul (sch 9) u1 pf_rand is_parallel
  let theta ← colVecToVec (← ComMat.add (← ComMat.add y_rand_lin_a y_rand_stmt_lin_x) pf_rand_com1)
  assertEq theta.length 1
  pure ⟨pi, theta, .Quadratic, pf_rand⟩

/-- `QuadEqu::commit_and_prove`, src/prover/prove.rs:383-408. -/
def QuadEqu.commitAndProveU (sch : Nat → Scheduler) (self : QuadEqu F)
    (scalar_xvars scalar_yvars : List F) (crs : CRS G1 G2 GT) :
    Unw ρ (CProof F G1 G2) := do
  let scalar_xcoms ← batchCommitScalarToB1U scalar_xvars crs
  let scalar_ycoms ← batchCommitScalarToB2U scalar_yvars crs
  let pf ← self.proveU sch scalar_xvars scalar_yvars scalar_xcoms scalar_ycoms crs
  pure ⟨scalar_xcoms, scalar_ycoms, [pf]⟩

end GS
