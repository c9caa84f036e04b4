import Verif.Model.Prove

/-!
# `==`

`Com1`, `Com2`, `ComT` are in `Verif/Model/Com.lean`. `==` of the group and field elements of arkworks is taken as equality.
-/

namespace GS

/-- `==` of `Vec<T>` (standard library): the same length, and `==` elements. Used by
`derive(PartialEq)` at src/prover/prove.rs:55-64 and src/statement.rs:117-179. -/
def vecEq {α : Type} (eq : α → α → Bool) (a b : List α) : Bool :=
  a.length == b.length && (List.zipWith eq a b).all id

variable {F G1 G2 GT G : Type} [DecidableEq F] [DecidableEq G] [DecidableEq G1] [DecidableEq G2] [DecidableEq GT]

/-- `==` of `Matrix<F>`, which is `Vec<Vec<F>>`, src/data_structures.rs:48. -/
def matEq (a b : Matrix F) : Bool := vecEq (vecEq (· == ·)) a b

/-- `==` of `Commit1` and `Commit2`, src/prover/commit.rs:33-39. -/
def Commit.eq (a b : Commit F G) : Bool := vecEq Com.eq a.coms b.coms && matEq a.rand b.rand

/-- Derived `==` of `EquType`, src/statement.rs:42. -/
def EquType.eq : EquType → EquType → Bool
  | .PairingProduct, .PairingProduct => true
  | .MultiScalarG1, .MultiScalarG1 => true
  | .MultiScalarG2, .MultiScalarG2 => true
  | .Quadratic, .Quadratic => true
  | _, _ => false

/-- Derived `==` of `EquProof`, src/prover/prove.rs:55-61. -/
def EquProof.eq (a b : EquProof F G1 G2) : Bool :=
  vecEq Com.eq a.pi b.pi && vecEq Com.eq a.theta b.theta && EquType.eq a.equ_type b.equ_type && matEq a.rand b.rand

/-- Derived `==` of `CProof`, src/prover/prove.rs:64-69. -/
def CProof.eq (a b : CProof F G1 G2) : Bool :=
  Commit.eq a.xcoms b.xcoms && Commit.eq a.ycoms b.ycoms && vecEq EquProof.eq a.equ_proofs b.equ_proofs

/-- Derived `==` of `PPE`, src/statement.rs:117-123. -/
def PPE.eq (a b : PPE F G1 G2 GT) : Bool :=
  vecEq (· == ·) a.a_consts b.a_consts && vecEq (· == ·) a.b_consts b.b_consts && matEq a.gamma b.gamma &&
    a.target == b.target

/-- Derived `==` of `MSMEG1`, src/statement.rs:138-144. -/
def MSMEG1.eq (a b : MSMEG1 F G1) : Bool :=
  vecEq (· == ·) a.a_consts b.a_consts && vecEq (· == ·) a.b_consts b.b_consts && matEq a.gamma b.gamma &&
    a.target == b.target

/-- Derived `==` of `MSMEG2`, src/statement.rs:159-165. -/
def MSMEG2.eq (a b : MSMEG2 F G2) : Bool :=
  vecEq (· == ·) a.a_consts b.a_consts && vecEq (· == ·) a.b_consts b.b_consts && matEq a.gamma b.gamma &&
    a.target == b.target

/-- Derived `==` of `QuadEqu`, src/statement.rs:179-185. -/
def QuadEqu.eq (a b : QuadEqu F) : Bool :=
  vecEq (· == ·) a.a_consts b.a_consts && vecEq (· == ·) a.b_consts b.b_consts && matEq a.gamma b.gamma &&
    a.target == b.target

end GS
