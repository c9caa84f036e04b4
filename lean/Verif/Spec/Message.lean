import Verif.Spec.Raw
import Verif.Spec.Opening
import Verif.Model.Verify
import Verif.Spec.Serialize
import Verif.Model.Message

/-! # Messages, and reading that keeps points outside the subgroup of prime order out -/

namespace GS
variable {F G H G1 G2 GT : Type} [Field F]

/-- The lengths of all vectors in the message fit in a `u64` (true of every Rust `Vec`). -/
def CProof.Fits (cp : CProof F G1 G2) : Prop :=
  cp.xcoms.Fits ∧ cp.ycoms.Fits ∧ Fits64 cp.equ_proofs ∧ ∀ pf ∈ cp.equ_proofs, pf.Fits

/-- All field and group elements in the message have the given properties. -/
def CProof.Elems (pF : F → Prop) (p1 : G1 → Prop) (p2 : G2 → Prop) (cp : CProof F G1 G2) : Prop :=
  cp.xcoms.Elems pF p1 ∧ cp.ycoms.Elems pF p2 ∧ ∀ pf ∈ cp.equ_proofs, pf.Elems pF p1 p2

/-- What is asked of the codec of the points of a curve: `G` are all its points, `H` is the subgroup of prime order, `j` the
inclusion and `f` the projection. A point is valid when it is in the subgroup. -/
structure ChecksSubgroup (F : Type) {G H : Type} [Field F] [AddCommGroup G] [SMul F G] [AddCommGroup H] [SMul F H] (c : Codec G)
    (f : G → H) (j : H → G) : Prop where
  lawful : c.Lawful
  projects : Projects F f
  inclusion : ∀ x, f (j x) = x
  valid : ∀ g, c.Valid g ↔ ∃ x, j x = g

variable {H1 H2 : Type} [AddCommGroup G1] [SMul F G1] [AddCommGroup G2] [SMul F G2]
  [AddCommGroup GT] [Module F GT] [DecidableEq GT] [AddCommGroup H1] [Module F H1] [AddCommGroup H2] [Module F H2]

/-- The four kinds of equations over the subgroups, as the verifier has them. -/
inductive OneEqu (F H1 H2 GT : Type) where
  | ppe (equ : PPE F H1 H2 GT)
  | msmeg1 (equ : MSMEG1 F H1)
  | msmeg2 (equ : MSMEG2 F H2)
  | quad (equ : QuadEqu F)

/-- The verifier of the other properties. -/
def OneEqu.verify (e : H1 →ₗ[F] H2 →ₗ[F] GT) (sch : Scheduler) (crs : CRS H1 H2 GT) (cp : CProof F H1 H2) : OneEqu F H1 H2 GT → Res Bool
  | .ppe equ => equ.verify e sch cp crs
  | .msmeg1 equ => equ.verify e sch cp crs
  | .msmeg2 equ => equ.verify e sch cp crs
  | .quad equ => equ.verify e sch cp crs

/-- The verifier on all points, for the equation and the CRS included in them. -/
def OneEqu.verifyRaw (e' : G1 → G2 → GT) (j1 : H1 → G1) (j2 : H2 → G2) (sch : Scheduler) (crs : CRS H1 H2 GT) (equ : OneEqu F H1 H2 GT)
    (cp : CProof F G1 G2) : Res Bool :=
  match equ with
  | .ppe equ => (equ.on j1 j2).verifyRaw e' sch cp (crs.on j1 j2)
  | .msmeg1 equ => (equ.on j1).verifyRaw e' sch cp (crs.on j1 j2)
  | .msmeg2 equ => (equ.on j2).verifyRaw e' sch cp (crs.on j1 j2)
  | .quad equ => equ.verifyRaw e' sch cp (crs.on j1 j2)

/-- The commitments of the message open to values that satisfy the equation. -/
def OneEqu.Proved (e : H1 →ₗ[F] H2 →ₗ[F] GT) (crs : CRS H1 H2 GT) (cp : CProof F H1 H2) : OneEqu F H1 H2 GT → Prop
  | .ppe equ => ∃ x y, List.Forall₂ (CanOpenGroup F crs.u) cp.xcoms.coms x ∧ List.Forall₂ (CanOpenGroup F crs.v) cp.ycoms.coms y ∧
      equ.Holds e x y
  | .msmeg1 equ => ∃ x y, List.Forall₂ (CanOpenGroup F crs.u) cp.xcoms.coms x ∧
      List.Forall₂ (CanOpenScalar crs.v crs.g2_gen) cp.ycoms.coms y ∧ equ.Holds x y
  | .msmeg2 equ => ∃ x y, List.Forall₂ (CanOpenScalar crs.u crs.g1_gen) cp.xcoms.coms x ∧
      List.Forall₂ (CanOpenGroup F crs.v) cp.ycoms.coms y ∧ equ.Holds x y
  | .quad equ => ∃ x y, List.Forall₂ (CanOpenScalar crs.u crs.g1_gen) cp.xcoms.coms x ∧
      List.Forall₂ (CanOpenScalar crs.v crs.g2_gen) cp.ycoms.coms y ∧ equ.Holds x y

end GS
