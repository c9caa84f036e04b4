import Verif.Spec.Equation
import Verif.Spec.Matrix
import Verif.Model.Prove
import Verif.Model.Generator

/-!
# Carrying data from one bilinear group to another

`f1 : G1 → G1'`, `f2 : G2 → G2'`, `fT : GT → GT'` are linear and compatible with the pairings `e`, `e'`. Every group
element inside a value is replaced by its image; scalars, sizes and types are kept.
-/

namespace GS
variable {F G G' G1 G2 GT G1' G2' GT' : Type} [Field F]
  [AddCommGroup G] [Module F G] [AddCommGroup G'] [Module F G']
  [AddCommGroup G1] [Module F G1] [AddCommGroup G2] [Module F G2] [AddCommGroup GT] [Module F GT]
  [AddCommGroup G1'] [Module F G1'] [AddCommGroup G2'] [Module F G2'] [AddCommGroup GT'] [Module F GT']

/-- The maps respect the pairings: `fT (e x y) = e' (f1 x) (f2 y)`. -/
def PairingHom (e : G1 →ₗ[F] G2 →ₗ[F] GT) (e' : G1' →ₗ[F] G2' →ₗ[F] GT') (f1 : G1 →ₗ[F] G1') (f2 : G2 →ₗ[F] G2')
    (fT : GT →ₗ[F] GT') : Prop :=
  ∀ x y, fT (e x y) = e' (f1 x) (f2 y)

/-- The two views of one generator: same scalars, same states, and group elements that are images of each other. -/
structure RngHom (ρ : Type) [Rng ρ F G1 G2] [Rng ρ F G1' G2'] (f1 : G1 →ₗ[F] G1') (f2 : G2 →ₗ[F] G2') : Prop where
  scalar : ∀ s : ρ, Rng.randF (F := F) G1' G2' s = Rng.randF (F := F) G1 G2 s
  left : ∀ s : ρ, Rng.randG1 (G1 := G1') F G2' s = ((f1 (Rng.randG1 (G1 := G1) F G2 s).1), (Rng.randG1 (G1 := G1) F G2 s).2)
  right : ∀ s : ρ, Rng.randG2 (G2 := G2') F G1' s = ((f2 (Rng.randG2 (G2 := G2) F G1 s).1), (Rng.randG2 (G2 := G2) F G1 s).2)

/-- Image of an element of `B1` or `B2`. -/
def Com.via (f : G →ₗ[F] G') (c : Com G) : Com G' := ⟨f c.c0, f c.c1⟩

/-- Image of an element of `BT`. -/
def ComT.via (f : GT →ₗ[F] GT') (c : ComT GT) : ComT GT' := ⟨f c.t0, f c.t1, f c.t2, f c.t3⟩

/-- Image of a CRS. -/
def CRS.via (f1 : G1 →ₗ[F] G1') (f2 : G2 →ₗ[F] G2') (fT : GT →ₗ[F] GT') (crs : CRS G1 G2 GT) : CRS G1' G2' GT' where
  u := crs.u.map (Com.via f1)
  v := crs.v.map (Com.via f2)
  g1_gen := f1 crs.g1_gen
  g2_gen := f2 crs.g2_gen
  gt_gen := fT crs.gt_gen

/-- Image of a commitment; the randomness is kept. -/
def Commit.via (f : G →ₗ[F] G') (c : Commit F G) : Commit F G' := ⟨c.coms.map (Com.via f), c.rand⟩

/-- Image of an equation proof; the randomness and the type are kept. -/
def EquProof.via (f1 : G1 →ₗ[F] G1') (f2 : G2 →ₗ[F] G2') (pf : EquProof F G1 G2) : EquProof F G1' G2' where
  pi := pf.pi.map (Com.via f2)
  theta := pf.theta.map (Com.via f1)
  equ_type := pf.equ_type
  rand := pf.rand

/-- Image of a commit-and-prove proof. -/
def CProof.via (f1 : G1 →ₗ[F] G1') (f2 : G2 →ₗ[F] G2') (cp : CProof F G1 G2) : CProof F G1' G2' where
  xcoms := cp.xcoms.via f1
  ycoms := cp.ycoms.via f2
  equ_proofs := cp.equ_proofs.map (EquProof.via f1 f2)

/-- Image of a pairing product equation. -/
def PPE.via (f1 : G1 →ₗ[F] G1') (f2 : G2 →ₗ[F] G2') (fT : GT →ₗ[F] GT') (equ : PPE F G1 G2 GT) : PPE F G1' G2' GT' :=
  ⟨equ.a_consts.map f1, equ.b_consts.map f2, equ.gamma, fT equ.target⟩

/-- Image of a multi-scalar multiplication equation in `G1`. -/
def MSMEG1.via (f1 : G1 →ₗ[F] G1') (equ : MSMEG1 F G1) : MSMEG1 F G1' :=
  ⟨equ.a_consts.map f1, equ.b_consts, equ.gamma, f1 equ.target⟩

/-- Image of a multi-scalar multiplication equation in `G2`. -/
def MSMEG2.via (f2 : G2 →ₗ[F] G2') (equ : MSMEG2 F G2) : MSMEG2 F G2' :=
  ⟨equ.a_consts, equ.b_consts.map f2, equ.gamma, f2 equ.target⟩

/-- The second call behaves as the first one carried over: it returns exactly the images of what the first returns, and
panics exactly when the first does. -/
def ImageOf {α β : Type} (φ : α → β) (x : Res α) (y : Res β) : Prop :=
  (∀ b, y = .ok b ↔ ∃ a, x = .ok a ∧ φ a = b) ∧ (y.Panics ↔ x.Panics)

end GS
