import Verif.Spec.Hiding
import Verif.Spec.Equation
import Verif.Lemmas.Com

/-!
# The randomness recorded in a proof

`EquProof` has a private field `rand` (src/prover/prove.rs:60), the proof's own randomness. It cannot be removed by a user of
the library, and the serialization of a proof includes it. Here the commitment randomness stays secret, and a bystander
uses this field.
-/

namespace GS
variable {F G1 G2 GT : Type} [Field F] [AddCommGroup G1] [Module F G1] [AddCommGroup G2] [Module F G2]
  [AddCommGroup GT] [Module F GT]

/-- The values of the commitments, and the whole proofs, computed by `run` on the tape `t`. -/
def proofsOn {N : Nat} (run : List F → Res (CProof F G1 G2 × List F)) (t : Fin N → F) :
    Res (List (Com G1) × List (Com G2) × List (EquProof F G1 G2)) :=
  (run (List.ofFn t)).map fun r => (r.1.xcoms.coms, r.1.ycoms.coms, r.1.equ_proofs)

/-- Sum of the pairings of corresponding elements. -/
def pairSum (e : G1 →ₗ[F] G2 →ₗ[F] GT) (cs : List (Com G1)) (ds : List (Com G2)) : ComT GT :=
  (List.zipWith (fun c d => ComT.pairing e c d) cs ds).sum

/-- `b + Γ d`. -/
def weights (b : List (Com G2)) (gamma : Matrix F) (d : List (Com G2)) : List (Com G2) :=
  List.zipWith (fun b row => b + (List.zipWith (fun s w => s • w) row d).sum) b gamma

/-- `pi` without the part that came from the proof's randomness. -/
def unmask (v : List (Com G2)) (pf : EquProof F G1 G2) : List (Com G2) :=
  pf.pi.mapIdx fun k p => p + (List.zipWith (fun row w => row.getD k 0 • w) pf.rand v).sum

/-- What a bystander computes from keys, equation, commitments `c`, `d` and proof. -/
def bystander (e : G1 →ₗ[F] G2 →ₗ[F] GT) (crs : CRS G1 G2 GT) (b : List (Com G2)) (gamma : Matrix F) (c : List (Com G1))
    (d : List (Com G2)) (pf : EquProof F G1 G2) : ComT GT :=
  pairSum e c (weights b gamma d) - pairSum e crs.u (unmask crs.v pf)

/-- `Γᵀ x`, of length `n`. -/
def colSums {G : Type} [AddCommGroup G] [Module F G] (n : Nat) (gamma : Matrix F) (x : List G) : List G :=
  (List.range n).map fun j => (List.zipWith (fun row x => row.getD j 0 • x) gamma x).sum

/-- The two terms of the equation that depend on `x` only: `Γᵀ x` and `x · B`. -/
def PPE.leak (e : G1 →ₗ[F] G2 →ₗ[F] GT) (equ : PPE F G1 G2 GT) (x : List G1) : List G1 × GT :=
  (colSums equ.a_consts.length equ.gamma x, (List.zipWith (fun x b => e x b) x equ.b_consts).sum)

/-- `Γᵀ x` and `x · b`. -/
def MSMEG1.leak (equ : MSMEG1 F G1) (x : List G1) : List G1 × G1 :=
  (colSums equ.a_consts.length equ.gamma x, (List.zipWith (fun x b => b • x) x equ.b_consts).sum)

/-- `Γᵀ x` and `x · B`. -/
def MSMEG2.leak (equ : MSMEG2 F G2) (x : List F) : List F × G2 :=
  (colSums equ.a_consts.length equ.gamma x, (List.zipWith (fun x b => x • b) x equ.b_consts).sum)

/-- `Γᵀ x` and `x · b`. -/
def QuadEqu.leak (equ : QuadEqu F) (x : List F) : List F × F :=
  (colSums equ.a_consts.length equ.gamma x, (List.zipWith (fun x b => x * b) x equ.b_consts).sum)

end GS
