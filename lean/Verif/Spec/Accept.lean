import Verif.Spec.Equation
import Verif.Model.Prove
import Verif.Lemmas.Com

/-!
# The Groth-Sahai verification equations

For commitments `c`, `d` and proof `π`, `θ`, in the group `GT^4` of 2 x 2 matrices:
`Σ_j F(ι(a_j), d_j) + Σ_i F(c_i, ι'(b_i)) + Σ_i Σ_j γ_ij F(c_i, d_j) = ι_T(t) + Σ_k F(u_k, π_k) + Σ_l F(θ_l, v_l)`,
where `F` is the matrix of pairings of coordinates. A group element is embedded as `(0, x)`, a scalar as
`x · (u_1 + (0, g))`. Equations whose left (right) variables are scalars use only `u_0` (`v_0`) on the right-hand side.
-/

namespace GS
variable {F G1 G2 GT : Type} [Field F] [AddCommGroup G1] [Module F G1] [AddCommGroup G2] [Module F G2]
  [AddCommGroup GT] [Module F GT] (e : G1 →ₗ[F] G2 →ₗ[F] GT)

/-- The matrix of pairings of the coordinates. -/
def tensor (c : Com G1) (d : Com G2) : ComT GT :=
  ⟨e c.c0 d.c0, e c.c0 d.c1, e c.c1 d.c0, e c.c1 d.c1⟩

/-- The verification equation. -/
def gsEquation (a c : List (Com G1)) (b d : List (Com G2)) (gamma : Matrix F) (t : ComT GT) (u : List (Com G1))
    (pi : List (Com G2)) (theta : List (Com G1)) (v : List (Com G2)) : Prop :=
  equLhs (tensor e) a c b d gamma =
    t + (List.zipWith (tensor e) u pi).sum + (List.zipWith (tensor e) theta v).sum

/-- The embedding `x ↦ (0, x)`. -/
def emb {G : Type} [Zero G] (x : G) : Com G := ⟨0, x⟩

def PPE.Equation (equ : PPE F G1 G2 GT) (crs : CRS G1 G2 GT) (c : List (Com G1)) (d : List (Com G2))
    (pf : EquProof F G1 G2) : Prop :=
  gsEquation e (equ.a_consts.map emb) c (equ.b_consts.map emb) d equ.gamma ⟨0, 0, 0, equ.target⟩
    crs.u pf.pi pf.theta crs.v

def MSMEG1.Equation (equ : MSMEG1 F G1) (crs : CRS G1 G2 GT) (c : List (Com G1)) (d : List (Com G2))
    (pf : EquProof F G1 G2) : Prop :=
  ∃ v0 v1 v' t0 t', crs.v = v0 :: v1 :: v' ∧ pf.theta = t0 :: t' ∧
    gsEquation e (equ.a_consts.map emb) c (equ.b_consts.map fun b => b • (v1 + emb crs.g2_gen)) d equ.gamma
      (tensor e (emb equ.target) (v1 + emb crs.g2_gen)) crs.u pf.pi [t0] [v0]

def MSMEG2.Equation (equ : MSMEG2 F G2) (crs : CRS G1 G2 GT) (c : List (Com G1)) (d : List (Com G2))
    (pf : EquProof F G1 G2) : Prop :=
  ∃ u0 u1 u' p0 p', crs.u = u0 :: u1 :: u' ∧ pf.pi = p0 :: p' ∧
    gsEquation e (equ.a_consts.map fun a => a • (u1 + emb crs.g1_gen)) c (equ.b_consts.map emb) d equ.gamma
      (tensor e (u1 + emb crs.g1_gen) (emb equ.target)) [u0] [p0] pf.theta crs.v

def QuadEqu.Equation (equ : QuadEqu F) (crs : CRS G1 G2 GT) (c : List (Com G1)) (d : List (Com G2))
    (pf : EquProof F G1 G2) : Prop :=
  ∃ u0 u1 u' v0 v1 v' p0 p' t0 t', crs.u = u0 :: u1 :: u' ∧ crs.v = v0 :: v1 :: v' ∧ pf.pi = p0 :: p' ∧
    pf.theta = t0 :: t' ∧
    gsEquation e (equ.a_consts.map fun a => a • (u1 + emb crs.g1_gen)) c
      (equ.b_consts.map fun b => b • (v1 + emb crs.g2_gen)) d equ.gamma
      (equ.target • tensor e (u1 + emb crs.g1_gen) (v1 + emb crs.g2_gen)) [u0] [p0] [t0] [v0]

end GS
