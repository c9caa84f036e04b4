import Verif.Model.Coord
import Verif.Spec.Target

/-! # Coordinates of points -/

namespace GS
variable {F H1 H2 GT R1 R2 RT : Type}

section
variable {K : Type} [Field K] [DecidableEq K]

/-- The Jacobian coordinates are coordinates of the point. -/
def Projective.Of {b : K} (P : Projective K) : (cubic b).Point → Prop
  | .zero => P.z = 0
  | .some x y _ => P.z ≠ 0 ∧ P.x = x * P.z ^ 2 ∧ P.y = y * P.z ^ 3

/-- On these points multiplication by scalars is multiplication by integers. -/
def Multiplies (r : Nat) [MulProjective (ZMod r) K] {b : K} (S : (cubic b).Point → Prop) : Prop :=
  ∀ (P : Projective K) (p : (cubic b).Point), S p → P.Of p → ∀ a : ZMod r, (MulProjective.mul P a).Of (a.val • p)

end

section
variable [Field F] [Add R1] [Zero R1] [SMul F R1] [Add R2] [Zero R2] [SMul F R2] [Add RT] [Zero RT] [DecidableEq RT]

/-- The verifier with these operations. -/
def OneEqu.verifyOn (e' : R1 → R2 → RT) (sch : Scheduler) (crs : CRS R1 R2 RT) (cp : CProof F R1 R2) : OneEqu F R1 R2 RT → Res Bool
  | .ppe equ => equ.verifyRaw e' sch cp crs
  | .msmeg1 equ => equ.verifyRaw e' sch cp crs
  | .msmeg2 equ => equ.verifyRaw e' sch cp crs
  | .quad equ => equ.verifyRaw e' sch cp crs

end

/-- How an element of the target group is represented, with the operations of `PairingOutput`. -/
def gtOut {K : Type} [Field K] (x : Gt K) : PairingOutput K := gtRep x

/-- The pairing of what represents two points represents the pairing of the points. -/
def PairsRep (e' : R1 → R2 → RT) (e : H1 → H2 → GT) (j1 : H1 → R1) (j2 : H2 → R2) (jT : GT → RT) : Prop := ∀ x y, e' (j1 x) (j2 y) = jT (e x y)

/-- Addition of what represents elements of the target group represents their sum, and they are represented once each. -/
structure AddsRep [Add GT] [Zero GT] [Add RT] [Zero RT] (jT : GT → RT) : Prop where
  injective : Function.Injective jT
  zero : jT 0 = 0
  add : ∀ x y, jT (x + y) = jT x + jT y

end GS
