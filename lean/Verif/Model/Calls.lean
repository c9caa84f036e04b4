import Verif.Model.Conc
import Verif.Model.Verify

/-!
# Whole calls that run at the same time

`prove`, `commit_and_prove` and `verify` as sequential code with parallel products in between, executed step by step as in
`Verif/Model/Conc.lean`. Any number of calls may run at the same time; they share the worker threads (rayon's global pool), so
the steps of all of them interleave in any way. What they read is borrowed immutably or private: a call has the only `&mut`
reference to its generator. The code between two products is one step.
-/

namespace GS

/-- Sequential code that may start a parallel product, wait for it and go on with its result. The
products that start threads: src/data_structures.rs:659-679, 710-728, 838-856 and 885-901. -/
inductive Call (α : Type) : Type 1 where
  | ret (r : Res α)
  | mul {A B β : Type} [Zero β] [Add β] (L : Matrix A) (R : Matrix B) (term : A → B → β) (k : Matrix β → Call α)

namespace Call
variable {α β : Type}

/-- `let x = c; f(x)`; a panic in `c` unwinds. The products that start threads:
src/data_structures.rs:659-679, 710-728, 838-856 and 885-901. -/
def bind : Call α → (α → Call β) → Call β
  | ret (.ok a), f => f a
  | ret (.error p), _ => ret (.error p)
  | mul L R term k, f => mul L R term fun M => (k M).bind f

/-- The products that start threads: src/data_structures.rs:659-679, 710-728, 838-856 and 885-901.
-/
instance : Monad Call where
  pure a := ret (.ok a)
  bind := bind

/-- Code without parallel products. The products that start threads:
src/data_structures.rs:659-679, 710-728, 838-856 and 885-901. -/
instance : MonadLift Res Call where
  monadLift := ret

end Call

/-- The state of a call: about to run code, in a parallel product with its grid of tasks, or
finished. The products that start threads: src/data_structures.rs:659-679, 710-728, 838-856 and
885-901. -/
inductive CallState (α : Type) : Type 1 where
  | code (c : Call α)
  | par {β : Type} [Zero β] [Add β] (m n : Nat) (ts : Nat → Nat → List (Res β)) (g : Nat → Row β) (k : Matrix β → Call α)
  | done (r : Res α)

/-- One step of a call. The products that start threads: src/data_structures.rs:659-679, 710-728,
838-856 and 885-901. -/
inductive CallStep {α : Type} : CallState α → CallState α → Prop where
  | ret (r : Res α) : CallStep (.code (.ret r)) (.done r)
  | quick {A B β : Type} [Zero β] [Add β] {L : Matrix A} {R : Matrix B} {term : A → B → β} {k : Matrix β → Call α} {M : Matrix β}
      (h : concProduct L R term = .ret (.ok M)) : CallStep (.code (.mul L R term k)) (.code (k M))
  | quickPanic {A B β : Type} [Zero β] [Add β] {L : Matrix A} {R : Matrix B} {term : A → B → β} {k : Matrix β → Call α} {p : Panic}
      (h : concProduct L R term = .ret (.error p)) : CallStep (.code (.mul L R term k)) (.done (.error p))
  | fork {A B β : Type} [Zero β] [Add β] {L : Matrix A} {R : Matrix B} {term : A → B → β} {k : Matrix β → Call α} {m n : Nat}
      {ts : Nat → Nat → List (Res β)} (h : concProduct L R term = .par m n ts) :
      CallStep (.code (.mul L R term k)) (.par m n ts gridStart k)
  | work {β : Type} [Zero β] [Add β] {m n : Nat} {ts : Nat → Nat → List (Res β)} {g g' : Nat → Row β} {k : Matrix β → Call α}
      (h : GridStep m n ts g g') : CallStep (.par m n ts g k) (.par m n ts g' k)
  | join {β : Type} [Zero β] [Add β] {m n : Nat} {ts : Nat → Nat → List (Res β)} {g : Nat → Row β} {k : Matrix β → Call α}
      {M : Matrix β} (h : Outcome m g (.ok M)) : CallStep (.par m n ts g k) (.code (k M))
  | joinPanic {β : Type} [Zero β] [Add β] {m n : Nat} {ts : Nat → Nat → List (Res β)} {g : Nat → Row β} {k : Matrix β → Call α}
      {p : Panic} (h : Outcome m g (.error p)) : CallStep (.par m n ts g k) (.done (.error p))

/-- One step of one of `n` calls that run at the same time. The products that start threads:
src/data_structures.rs:659-679, 710-728, 838-856 and 885-901. -/
inductive SysStep {n : Nat} {α : Fin n → Type} : (∀ i, CallState (α i)) → (∀ i, CallState (α i)) → Prop where
  | call (s : ∀ i, CallState (α i)) (i : Fin n) (s' : CallState (α i)) (h : CallStep (s i) s') :
      SysStep s (Function.update s i s')

/-- `left_mul(lhs, true)` of commitments, src/data_structures.rs:696-727. -/
def ComMat.leftMulCall {F G : Type} [Field F] [AddCommGroup G] [Module F G] (self : Matrix (Com G)) (lhs : Matrix F) :
    Call (Matrix (Com G)) := .mul lhs self (fun b a => a.scalarMul b) pure

/-- `right_mul(rhs, true)` of scalars, src/data_structures.rs:824-854. -/
def FieldMat.rightMulCall {F : Type} [Field F] (self rhs : Matrix F) : Call (Matrix F) :=
  .mul self rhs (fun a b => a * b) pure

variable {F G1 G2 GT : Type} [Field F] [AddCommGroup G1] [Module F G1] [AddCommGroup G2] [Module F G2]

section prove
variable {ρ : Type} [Rng ρ F G1 G2]

/-- `PPE::prove`, src/prover/prove.rs:92-171. -/
def PPE.proveCall (self : PPE F G1 G2 GT) (xvars : List G1) (yvars : List G2)
    (xcoms : Commit F G1) (ycoms : Commit F G2) (crs : CRS G1 G2 GT) (rng : ρ) :
    Call (EquProof F G1 G2 × ρ) := do
  assertEq xvars.length xcoms.rand.length
  assertEq self.gamma.length xcoms.rand.length
  assertEq (← idx xcoms.rand 0).length 2
  assertEq yvars.length ycoms.rand.length
  assertEq (← idx self.gamma 0).length ycoms.rand.length
  assertEq (← idx ycoms.rand 0).length 2
  let x_rand_trans ← FieldMat.transpose xcoms.rand
  let y_rand_trans ← FieldMat.transpose ycoms.rand
  let (t00, rng) := Rng.randF (F := F) G1 G2 rng
  let (t01, rng) := Rng.randF (F := F) G1 G2 rng
  let (t10, rng) := Rng.randF (F := F) G1 G2 rng
  let (t11, rng) := Rng.randF (F := F) G1 G2 rng
  let pf_rand : Matrix F := [[t00, t01], [t10, t11]]
  let x_rand_lin_b ← ComMat.leftMulCall (vecToColVec (Com2.batchLinearMap self.b_consts))
    x_rand_trans
  let x_rand_stmt ← FieldMat.rightMulCall x_rand_trans self.gamma
  let x_rand_stmt_lin_y ← ComMat.leftMulCall (vecToColVec (Com2.batchLinearMap yvars))
    x_rand_stmt
  let pf_rand_stmt ← FieldMat.add
    (← FieldMat.rightMulCall (← FieldMat.rightMulCall x_rand_trans self.gamma)
      ycoms.rand)
    (← FieldMat.neg (← FieldMat.transpose pf_rand))
  let pf_rand_stmt_com2 ← ComMat.leftMulCall (vecToColVec crs.v) pf_rand_stmt
  let pi ← colVecToVec (← ComMat.add (← ComMat.add x_rand_lin_b x_rand_stmt_lin_y) pf_rand_stmt_com2)
  assertEq pi.length 2
  let y_rand_lin_a ← ComMat.leftMulCall (vecToColVec (Com1.batchLinearMap self.a_consts))
    y_rand_trans
  let y_rand_stmt ← FieldMat.rightMulCall y_rand_trans (← FieldMat.transpose self.gamma)
  let y_rand_stmt_lin_x ← ComMat.leftMulCall (vecToColVec (Com1.batchLinearMap xvars))
    y_rand_stmt
  let pf_rand_com1 ← ComMat.leftMulCall (vecToColVec crs.u) pf_rand
  let theta ← colVecToVec (← ComMat.add (← ComMat.add y_rand_lin_a y_rand_stmt_lin_x) pf_rand_com1)
  assertEq theta.length 2
  pure (⟨pi, theta, .PairingProduct, pf_rand⟩, rng)

/-- `PPE::commit_and_prove`, src/prover/prove.rs:72-90. -/
def PPE.commitAndProveCall (self : PPE F G1 G2 GT) (xvars : List G1)
    (yvars : List G2) (crs : CRS G1 G2 GT) (rng : ρ) : Call (CProof F G1 G2 × ρ) := do
  let (xcoms, rng) ← batchCommitG1 (F := F) xvars crs rng
  let (ycoms, rng) ← batchCommitG2 (F := F) yvars crs rng
  let (pf, rng) ← self.proveCall xvars yvars xcoms ycoms crs rng
  pure (⟨xcoms, ycoms, [pf]⟩, rng)

/-- `MSMEG1::prove`, src/prover/prove.rs:195-274. -/
def MSMEG1.proveCall (self : MSMEG1 F G1) (xvars : List G1)
    (scalar_yvars : List F) (xcoms : Commit F G1) (scalar_ycoms : Commit F G2)
    (crs : CRS G1 G2 GT) (rng : ρ) : Call (EquProof F G1 G2 × ρ) := do
  assertEq xvars.length xcoms.rand.length
  assertEq self.gamma.length xcoms.rand.length
  assertEq (← idx xcoms.rand 0).length 2
  assertEq scalar_yvars.length scalar_ycoms.rand.length
  assertEq (← idx self.gamma 0).length scalar_ycoms.rand.length
  assertEq (← idx scalar_ycoms.rand 0).length 1
  let x_rand_trans ← FieldMat.transpose xcoms.rand
  let y_rand_trans ← FieldMat.transpose scalar_ycoms.rand
  let (t00, rng) := Rng.randF (F := F) G1 G2 rng
  let (t01, rng) := Rng.randF (F := F) G1 G2 rng
  let pf_rand : Matrix F := [[t00, t01]]
  let x_rand_lin_b ← ComMat.leftMulCall
    (vecToColVec (← Com2.batchScalarLinearMap self.b_consts crs)) x_rand_trans
  let x_rand_stmt ← FieldMat.rightMulCall x_rand_trans self.gamma
  let x_rand_stmt_lin_y ← ComMat.leftMulCall
    (vecToColVec (← Com2.batchScalarLinearMap scalar_yvars crs)) x_rand_stmt
  let pf_rand_stmt ← FieldMat.add
    (← FieldMat.rightMulCall (← FieldMat.rightMulCall x_rand_trans self.gamma)
      scalar_ycoms.rand)
    (← FieldMat.neg (← FieldMat.transpose pf_rand))
  let v1 : Matrix (Com G2) := [[← idx crs.v 0]]
  let pf_rand_stmt_com2 ← ComMat.leftMulCall v1 pf_rand_stmt
  let pi ← colVecToVec (← ComMat.add (← ComMat.add x_rand_lin_b x_rand_stmt_lin_y) pf_rand_stmt_com2)
  assertEq pi.length 2
  let y_rand_lin_a ← ComMat.leftMulCall (vecToColVec (Com1.batchLinearMap self.a_consts))
    y_rand_trans
  let y_rand_stmt ← FieldMat.rightMulCall y_rand_trans (← FieldMat.transpose self.gamma)
  let y_rand_stmt_lin_x ← ComMat.leftMulCall (vecToColVec (Com1.batchLinearMap xvars))
    y_rand_stmt
  let pf_rand_com1 ← ComMat.leftMulCall (vecToColVec crs.u) pf_rand
  let theta ← colVecToVec (← ComMat.add (← ComMat.add y_rand_lin_a y_rand_stmt_lin_x) pf_rand_com1)
  assertEq theta.length 1
  pure (⟨pi, theta, .MultiScalarG1, pf_rand⟩, rng)

/-- `MSMEG1::commit_and_prove`, src/prover/prove.rs:175-193. -/
def MSMEG1.commitAndProveCall (self : MSMEG1 F G1) (xvars : List G1)
    (scalar_yvars : List F) (crs : CRS G1 G2 GT) (rng : ρ) : Call (CProof F G1 G2 × ρ) := do
  let (xcoms, rng) ← batchCommitG1 (F := F) xvars crs rng
  let (scalar_ycoms, rng) ← batchCommitScalarToB2 scalar_yvars crs rng
  let (pf, rng) ← self.proveCall xvars scalar_yvars xcoms scalar_ycoms crs rng
  pure (⟨xcoms, scalar_ycoms, [pf]⟩, rng)

/-- `MSMEG2::prove`, src/prover/prove.rs:298-379. -/
def MSMEG2.proveCall (self : MSMEG2 F G2) (scalar_xvars : List F)
    (yvars : List G2) (scalar_xcoms : Commit F G1) (ycoms : Commit F G2)
    (crs : CRS G1 G2 GT) (rng : ρ) : Call (EquProof F G1 G2 × ρ) := do
  assertEq scalar_xvars.length scalar_xcoms.rand.length
  assertEq self.gamma.length scalar_xcoms.rand.length
  assertEq (← idx scalar_xcoms.rand 0).length 1
  assertEq yvars.length ycoms.rand.length
  assertEq (← idx self.gamma 0).length ycoms.rand.length
  assertEq (← idx ycoms.rand 0).length 2
  let x_rand_trans ← FieldMat.transpose scalar_xcoms.rand
  let y_rand_trans ← FieldMat.transpose ycoms.rand
  let (t00, rng) := Rng.randF (F := F) G1 G2 rng
  let (t10, rng) := Rng.randF (F := F) G1 G2 rng
  let pf_rand : Matrix F := [[t00], [t10]]
  let x_rand_lin_b ← ComMat.leftMulCall (vecToColVec (Com2.batchLinearMap self.b_consts))
    x_rand_trans
  let x_rand_stmt ← FieldMat.rightMulCall x_rand_trans self.gamma
  let x_rand_stmt_lin_y ← ComMat.leftMulCall (vecToColVec (Com2.batchLinearMap yvars))
    x_rand_stmt
  let pf_rand_stmt ← FieldMat.add
    (← FieldMat.rightMulCall (← FieldMat.rightMulCall x_rand_trans self.gamma)
      ycoms.rand)
    (← FieldMat.neg (← FieldMat.transpose pf_rand))
  let pf_rand_stmt_com2 ← ComMat.leftMulCall (vecToColVec crs.v) pf_rand_stmt
  let pi ← colVecToVec (← ComMat.add (← ComMat.add x_rand_lin_b x_rand_stmt_lin_y) pf_rand_stmt_com2)
  assertEq pi.length 1
  let y_rand_lin_a ← ComMat.leftMulCall
    (vecToColVec (← Com1.batchScalarLinearMap self.a_consts crs)) y_rand_trans
  let y_rand_stmt ← FieldMat.rightMulCall y_rand_trans (← FieldMat.transpose self.gamma)
  let y_rand_stmt_lin_x ← ComMat.leftMulCall
    (vecToColVec (← Com1.batchScalarLinearMap scalar_xvars crs)) y_rand_stmt
  let u1 : Matrix (Com G1) := [[← idx crs.u 0]]
  let pf_rand_com1 ← ComMat.leftMulCall u1 pf_rand
  let theta ← colVecToVec (← ComMat.add (← ComMat.add y_rand_lin_a y_rand_stmt_lin_x) pf_rand_com1)
  assertEq theta.length 2
  pure (⟨pi, theta, .MultiScalarG2, pf_rand⟩, rng)

/-- `MSMEG2::commit_and_prove`, src/prover/prove.rs:278-296. -/
def MSMEG2.commitAndProveCall (self : MSMEG2 F G2) (scalar_xvars : List F)
    (yvars : List G2) (crs : CRS G1 G2 GT) (rng : ρ) : Call (CProof F G1 G2 × ρ) := do
  let (scalar_xcoms, rng) ← batchCommitScalarToB1 scalar_xvars crs rng
  let (ycoms, rng) ← batchCommitG2 (F := F) yvars crs rng
  let (pf, rng) ← self.proveCall scalar_xvars yvars scalar_xcoms ycoms crs rng
  pure (⟨scalar_xcoms, ycoms, [pf]⟩, rng)

/-- `QuadEqu::prove`, src/prover/prove.rs:409-488. -/
def QuadEqu.proveCall (self : QuadEqu F) (scalar_xvars scalar_yvars : List F)
    (scalar_xcoms : Commit F G1) (scalar_ycoms : Commit F G2)
    (crs : CRS G1 G2 GT) (rng : ρ) : Call (EquProof F G1 G2 × ρ) := do
  assertEq scalar_xvars.length scalar_xcoms.rand.length
  assertEq self.gamma.length scalar_xcoms.rand.length
  assertEq (← idx scalar_xcoms.rand 0).length 1
  assertEq scalar_yvars.length scalar_ycoms.rand.length
  assertEq (← idx self.gamma 0).length scalar_ycoms.rand.length
  assertEq (← idx scalar_ycoms.rand 0).length 1
  let x_rand_trans ← FieldMat.transpose scalar_xcoms.rand
  let y_rand_trans ← FieldMat.transpose scalar_ycoms.rand
  let (t00, rng) := Rng.randF (F := F) G1 G2 rng
  let pf_rand : Matrix F := [[t00]]
  let x_rand_lin_b ← ComMat.leftMulCall
    (vecToColVec (← Com2.batchScalarLinearMap self.b_consts crs)) x_rand_trans
  let x_rand_stmt ← FieldMat.rightMulCall x_rand_trans self.gamma
  let x_rand_stmt_lin_y ← ComMat.leftMulCall
    (vecToColVec (← Com2.batchScalarLinearMap scalar_yvars crs)) x_rand_stmt
  let pf_rand_stmt ← FieldMat.add
    (← FieldMat.rightMulCall (← FieldMat.rightMulCall x_rand_trans self.gamma)
      scalar_ycoms.rand)
    (← FieldMat.neg (← FieldMat.transpose pf_rand))
  let v1 : Matrix (Com G2) := [[← idx crs.v 0]]
  let pf_rand_stmt_com2 ← ComMat.leftMulCall v1 pf_rand_stmt
  let pi ← colVecToVec (← ComMat.add (← ComMat.add x_rand_lin_b x_rand_stmt_lin_y) pf_rand_stmt_com2)
  assertEq pi.length 1
  let y_rand_lin_a ← ComMat.leftMulCall
    (vecToColVec (← Com1.batchScalarLinearMap self.a_consts crs)) y_rand_trans
  let y_rand_stmt ← FieldMat.rightMulCall y_rand_trans (← FieldMat.transpose self.gamma)
  let y_rand_stmt_lin_x ← ComMat.leftMulCall
    (vecToColVec (← Com1.batchScalarLinearMap scalar_xvars crs)) y_rand_stmt
  let u1 : Matrix (Com G1) := [[← idx crs.u 0]]
  let pf_rand_com1 ← ComMat.leftMulCall u1 pf_rand
  let theta ← colVecToVec (← ComMat.add (← ComMat.add y_rand_lin_a y_rand_stmt_lin_x) pf_rand_com1)
  assertEq theta.length 1
  pure (⟨pi, theta, .Quadratic, pf_rand⟩, rng)

/-- `QuadEqu::commit_and_prove`, src/prover/prove.rs:383-408. -/
def QuadEqu.commitAndProveCall (self : QuadEqu F)
    (scalar_xvars scalar_yvars : List F) (crs : CRS G1 G2 GT) (rng : ρ) :
    Call (CProof F G1 G2 × ρ) := do
  let (scalar_xcoms, rng) ← batchCommitScalarToB1 scalar_xvars crs rng
  let (scalar_ycoms, rng) ← batchCommitScalarToB2 scalar_yvars crs rng
  let (pf, rng) ← self.proveCall scalar_xvars scalar_yvars scalar_xcoms scalar_ycoms crs rng
  pure (⟨scalar_xcoms, scalar_ycoms, [pf]⟩, rng)

end prove

variable [AddCommGroup GT] [Module F GT] [DecidableEq GT]

/-- `PPE::verify`, src/verifier.rs:23-55. -/
def PPE.verifyCall (e : G1 →ₗ[F] G2 →ₗ[F] GT) (self : PPE F G1 G2 GT)
    (com_proof : CProof F G1 G2) (crs : CRS G1 G2 GT) : Call Bool := do
  assertEq com_proof.equ_proofs.length 1
  let pf ← idx com_proof.equ_proofs 0
  assertEq self.getType pf.equ_type
  let lin_a_com_y ← ComT.pairingSum e (Com1.batchLinearMap self.a_consts) com_proof.ycoms.coms
  let com_x_lin_b ← ComT.pairingSum e com_proof.xcoms.coms (Com2.batchLinearMap self.b_consts)
  let stmt_com_y ← ComMat.leftMulCall (vecToColVec com_proof.ycoms.coms) self.gamma
  let com_x_stmt_com_y ← ComT.pairingSum e com_proof.xcoms.coms (← colVecToVec stmt_com_y)
  let lin_t := ComT.linearMapPPE self.target
  let com1_pf2 ← ComT.pairingSum e crs.u pf.pi
  let pf1_com2 ← ComT.pairingSum e pf.theta crs.v
  let lhs := lin_a_com_y + com_x_lin_b + com_x_stmt_com_y
  let rhs := lin_t + com1_pf2 + pf1_com2
  pure (ComT.eq lhs rhs)

/-- `MSMEG1::verify`, src/verifier.rs:57-89. -/
def MSMEG1.verifyCall (e : G1 →ₗ[F] G2 →ₗ[F] GT) (self : MSMEG1 F G1)
    (com_proof : CProof F G1 G2) (crs : CRS G1 G2 GT) : Call Bool := do
  assertEq com_proof.equ_proofs.length 1
  let pf ← idx com_proof.equ_proofs 0
  assertEq self.getType pf.equ_type
  let lin_a_com_y ← ComT.pairingSum e (Com1.batchLinearMap self.a_consts) com_proof.ycoms.coms
  let com_x_lin_b ← ComT.pairingSum e com_proof.xcoms.coms
    (← Com2.batchScalarLinearMap self.b_consts crs)
  let stmt_com_y ← ComMat.leftMulCall (vecToColVec com_proof.ycoms.coms) self.gamma
  let com_x_stmt_com_y ← ComT.pairingSum e com_proof.xcoms.coms (← colVecToVec stmt_com_y)
  let lin_t ← ComT.linearMapMSMEG1 e self.target crs
  let com1_pf2 ← ComT.pairingSum e crs.u pf.pi
  let pf1_com2 := ComT.pairing e (← idx pf.theta 0) (← idx crs.v 0)
  let lhs := lin_a_com_y + com_x_lin_b + com_x_stmt_com_y
  let rhs := lin_t + com1_pf2 + pf1_com2
  pure (ComT.eq lhs rhs)

/-- `MSMEG2::verify`, src/verifier.rs:91-123. -/
def MSMEG2.verifyCall (e : G1 →ₗ[F] G2 →ₗ[F] GT) (self : MSMEG2 F G2)
    (com_proof : CProof F G1 G2) (crs : CRS G1 G2 GT) : Call Bool := do
  assertEq com_proof.equ_proofs.length 1
  let pf ← idx com_proof.equ_proofs 0
  assertEq self.getType pf.equ_type
  let lin_a_com_y ← ComT.pairingSum e (← Com1.batchScalarLinearMap self.a_consts crs)
    com_proof.ycoms.coms
  let com_x_lin_b ← ComT.pairingSum e com_proof.xcoms.coms (Com2.batchLinearMap self.b_consts)
  let stmt_com_y ← ComMat.leftMulCall (vecToColVec com_proof.ycoms.coms) self.gamma
  let com_x_stmt_com_y ← ComT.pairingSum e com_proof.xcoms.coms (← colVecToVec stmt_com_y)
  let lin_t ← ComT.linearMapMSMEG2 e self.target crs
  let com1_pf2 := ComT.pairing e (← idx crs.u 0) (← idx pf.pi 0)
  let pf1_com2 ← ComT.pairingSum e pf.theta crs.v
  let lhs := lin_a_com_y + com_x_lin_b + com_x_stmt_com_y
  let rhs := lin_t + com1_pf2 + pf1_com2
  pure (ComT.eq lhs rhs)

/-- `QuadEqu::verify`, src/verifier.rs:125-157. -/
def QuadEqu.verifyCall (e : G1 →ₗ[F] G2 →ₗ[F] GT) (self : QuadEqu F)
    (com_proof : CProof F G1 G2) (crs : CRS G1 G2 GT) : Call Bool := do
  assertEq com_proof.equ_proofs.length 1
  let pf ← idx com_proof.equ_proofs 0
  assertEq self.getType pf.equ_type
  let lin_a_com_y ← ComT.pairingSum e (← Com1.batchScalarLinearMap self.a_consts crs)
    com_proof.ycoms.coms
  let com_x_lin_b ← ComT.pairingSum e com_proof.xcoms.coms
    (← Com2.batchScalarLinearMap self.b_consts crs)
  let stmt_com_y ← ComMat.leftMulCall (vecToColVec com_proof.ycoms.coms) self.gamma
  let com_x_stmt_com_y ← ComT.pairingSum e com_proof.xcoms.coms (← colVecToVec stmt_com_y)
  let lin_t ← ComT.linearMapQuad e self.target crs
  let com1_pf2 := ComT.pairing e (← idx crs.u 0) (← idx pf.pi 0)
  let pf1_com2 := ComT.pairing e (← idx pf.theta 0) (← idx crs.v 0)
  let lhs := lin_a_com_y + com_x_lin_b + com_x_stmt_com_y
  let rhs := lin_t + com1_pf2 + pf1_com2
  pure (ComT.eq lhs rhs)

end GS
