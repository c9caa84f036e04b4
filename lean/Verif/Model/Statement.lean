import Verif.Model.Basic

/-!
# Statements, src/statement.rs

The marker traits `Equ`, `Equation` and the alias `Statement` (lines 99-109) carry no behaviour
beyond `get_type` and are not represented.
-/

namespace GS

/-- `EquType`, src/statement.rs:41-49. -/
inductive EquType where
  | PairingProduct
  | MultiScalarG1
  | MultiScalarG2
  | Quadratic
  deriving DecidableEq, Repr

/-- `PPE`, src/statement.rs:117-123. -/
structure PPE (F G1 G2 GT : Type) where
  a_consts : List G1
  b_consts : List G2
  gamma : Matrix F
  target : GT

/-- `MSMEG1`, src/statement.rs:138-144. -/
structure MSMEG1 (F G1 : Type) where
  a_consts : List G1
  b_consts : List F
  gamma : Matrix F
  target : G1

/-- `MSMEG2`, src/statement.rs:159-165. -/
structure MSMEG2 (F G2 : Type) where
  a_consts : List F
  b_consts : List G2
  gamma : Matrix F
  target : G2

/-- `QuadEqu`, src/statement.rs:179-185. -/
structure QuadEqu (F : Type) where
  a_consts : List F
  b_consts : List F
  gamma : Matrix F
  target : F

/-- `get_type` for `PPE`, src/statement.rs:128-130. -/
def PPE.getType {F G1 G2 GT : Type} (_ : PPE F G1 G2 GT) : EquType := .PairingProduct
/-- `get_type` for `MSMEG1`, src/statement.rs:149-151. -/
def MSMEG1.getType {F G1 : Type} (_ : MSMEG1 F G1) : EquType := .MultiScalarG1
/-- `get_type` for `MSMEG2`, src/statement.rs:169-171. -/
def MSMEG2.getType {F G2 : Type} (_ : MSMEG2 F G2) : EquType := .MultiScalarG2
/-- `get_type` for `QuadEqu`, src/statement.rs:189-191. -/
def QuadEqu.getType {F : Type} (_ : QuadEqu F) : EquType := .Quadratic

end GS
