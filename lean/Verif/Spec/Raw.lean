import Verif.Spec.Equation
import Verif.Model.Raw

/-!
# Points outside the subgroup of prime order

`G1`, `G2` are the groups of all points that pass unchecked, `H1`, `H2` the subgroups of prime order, and `f1`, `f2` the
projections onto them, which drop the part of a point whose order divides the cofactor.
-/

namespace GS
variable {F G H G1 G2 GT H1 H2 : Type} [Field F]

/-- A homomorphism that respects multiplication by scalars. -/
structure Projects (F : Type) {G H : Type} [Field F] [AddCommGroup G] [SMul F G] [AddCommGroup H] [SMul F H] (f : G → H) :
    Prop where
  add : ∀ x y, f (x + y) = f x + f y
  smul : ∀ (a : F) x, f (a • x) = a • f x

/-- A map of the values into others, of which no law is assumed, that respects the operations. -/
structure Carries (F : Type) {G H : Type} [Add G] [Neg G] [Zero G] [SMul F G] [Add H] [Neg H] [Zero H] [SMul F H] (f : G → H) : Prop where
  zero : f 0 = 0
  add : ∀ x y, f (x + y) = f x + f y
  smul : ∀ (a : F) x, f (a • x) = a • f x

/-- The generator draws the same scalars, whichever the groups. -/
def SameScalars (ρ F G1 G2 H1 H2 : Type) [Rng ρ F G1 G2] [Rng ρ F H1 H2] : Prop :=
  ∀ s : ρ, (Rng.randF H1 H2 s : F × ρ) = Rng.randF G1 G2 s

/-- The pairing looks only at the projections of its arguments. -/
def Ignores [AddCommGroup H1] [Module F H1] [AddCommGroup H2] [Module F H2] [AddCommGroup GT] [Module F GT]
    (e' : G1 → G2 → GT) (e : H1 →ₗ[F] H2 →ₗ[F] GT) (f1 : G1 → H1) (f2 : G2 → H2) : Prop :=
  ∀ x y, e' x y = e (f1 x) (f2 y)

/-- Every point inside the value is replaced by its image; scalars, sizes and types are kept. -/
def Com.on (f : G → H) (c : Com G) : Com H := ⟨f c.c0, f c.c1⟩
@[inherit_doc Com.on]
def CRS.on (f1 : G1 → H1) (f2 : G2 → H2) (crs : CRS G1 G2 GT) : CRS H1 H2 GT :=
  ⟨crs.u.map (Com.on f1), crs.v.map (Com.on f2), f1 crs.g1_gen, f2 crs.g2_gen, crs.gt_gen⟩
@[inherit_doc Com.on]
def Commit.on (f : G → H) (c : Commit F G) : Commit F H := ⟨c.coms.map (Com.on f), c.rand⟩
@[inherit_doc Com.on]
def EquProof.on (f1 : G1 → H1) (f2 : G2 → H2) (pf : EquProof F G1 G2) : EquProof F H1 H2 where
  pi := pf.pi.map (Com.on f2)
  theta := pf.theta.map (Com.on f1)
  equ_type := pf.equ_type
  rand := pf.rand
@[inherit_doc Com.on]
def CProof.on (f1 : G1 → H1) (f2 : G2 → H2) (cp : CProof F G1 G2) : CProof F H1 H2 where
  xcoms := cp.xcoms.on f1
  ycoms := cp.ycoms.on f2
  equ_proofs := cp.equ_proofs.map (EquProof.on f1 f2)
@[inherit_doc Com.on]
def PPE.on (f1 : G1 → H1) (f2 : G2 → H2) (equ : PPE F G1 G2 GT) : PPE F H1 H2 GT :=
  ⟨equ.a_consts.map f1, equ.b_consts.map f2, equ.gamma, equ.target⟩
@[inherit_doc Com.on]
def MSMEG1.on (f1 : G1 → H1) (equ : MSMEG1 F G1) : MSMEG1 F H1 :=
  ⟨equ.a_consts.map f1, equ.b_consts, equ.gamma, f1 equ.target⟩
@[inherit_doc Com.on]
def MSMEG2.on (f2 : G2 → H2) (equ : MSMEG2 F G2) : MSMEG2 F H2 :=
  ⟨equ.a_consts, equ.b_consts.map f2, equ.gamma, f2 equ.target⟩

end GS
