import Verif.Spec.RandLeak
import Verif.Spec.Accept

/-!
# Changing published proofs without a witness

`refresh` re-randomizes published commitments and proof; `PPE.combine` etc. add proofs about the same commitments.
Both use public data only: CRS, equation, commitments and proof elements.
-/

namespace GS
variable {F G1 G2 GT : Type} [Field F] [AddCommGroup G1] [Module F G1] [AddCommGroup G2] [Module F G2]
  [AddCommGroup GT] [Module F GT]

/-- Entrywise sum of lists. -/
def addL {A : Type} [Add A] (l l' : List A) : List A := List.zipWith (fun a b => a + b) l l'

/-- `R u`. -/
def mulKey {G : Type} [AddCommGroup G] [Module F G] (R : Matrix F) (u : List (Com G)) : List (Com G) :=
  R.map fun row => (List.zipWith (fun r u => r • u) row u).sum

/-- New commitments `c' = c + R u`, `d' = d + S v` and proof `π' = π + Rᵀ(b + Γ d') - Tᵀ v`, `θ' = θ + Sᵀ(a + Γᵀ c) + T u`.
`u`, `v` are the keys used by the kind of equation and `a`, `b` the images of its constants. -/
def refresh (u : List (Com G1)) (v : List (Com G2)) (a : List (Com G1)) (b : List (Com G2)) (gamma R S T : Matrix F)
    (c : List (Com G1)) (d : List (Com G2)) (pf : EquProof F G1 G2) : CProof F G1 G2 :=
  let c' := addL c (mulKey R u)
  let d' := addL d (mulKey S v)
  let pi' := addL pf.pi (addL (colSums u.length R (weights b gamma d')) ((colSums u.length T v).map fun w => -w))
  let theta' := addL pf.theta (addL (colSums v.length S (addL a (colSums a.length gamma c))) (mulKey T u))
  ⟨⟨c', []⟩, ⟨d', []⟩, [⟨pi', theta', pf.equ_type, []⟩]⟩

def PPE.refresh (equ : PPE F G1 G2 GT) (crs : CRS G1 G2 GT) (R S T : Matrix F) (c : List (Com G1)) (d : List (Com G2))
    (pf : EquProof F G1 G2) : CProof F G1 G2 :=
  GS.refresh crs.u crs.v (equ.a_consts.map emb) (equ.b_consts.map emb) equ.gamma R S T c d pf

def MSMEG1.refresh (equ : MSMEG1 F G1) (crs : CRS G1 G2 GT) (R S T : Matrix F) (c : List (Com G1)) (d : List (Com G2))
    (pf : EquProof F G1 G2) : CProof F G1 G2 :=
  GS.refresh crs.u (crs.v.take 1) (equ.a_consts.map emb)
    (equ.b_consts.map fun b => b • (crs.v.getD 1 0 + emb crs.g2_gen)) equ.gamma R S T c d pf

def MSMEG2.refresh (equ : MSMEG2 F G2) (crs : CRS G1 G2 GT) (R S T : Matrix F) (c : List (Com G1)) (d : List (Com G2))
    (pf : EquProof F G1 G2) : CProof F G1 G2 :=
  GS.refresh (crs.u.take 1) crs.v (equ.a_consts.map fun a => a • (crs.u.getD 1 0 + emb crs.g1_gen))
    (equ.b_consts.map emb) equ.gamma R S T c d pf

def QuadEqu.refresh (equ : QuadEqu F) (crs : CRS G1 G2 GT) (R S T : Matrix F) (c : List (Com G1)) (d : List (Com G2))
    (pf : EquProof F G1 G2) : CProof F G1 G2 :=
  GS.refresh (crs.u.take 1) (crs.v.take 1) (equ.a_consts.map fun a => a • (crs.u.getD 1 0 + emb crs.g1_gen))
    (equ.b_consts.map fun b => b • (crs.v.getD 1 0 + emb crs.g2_gen)) equ.gamma R S T c d pf

/-- The first `m` rows of length `n` of a tape, and the rest of the tape. -/
def cut (n : Nat) : Nat → List F → Matrix F × List F
  | 0, l => ([], l)
  | m + 1, l => (l.take n :: (cut n m (l.drop n)).1, (cut n m (l.drop n)).2)

/-- `f R S T`, where the `m × p`, `n × q` and `q × p` matrices `R`, `S`, `T` are read off the tape. -/
def onTape {α : Type} {N : Nat} (m n p q : Nat) (f : Matrix F → Matrix F → Matrix F → α) (t : Fin N → F) : Res α :=
  let R := cut p m (List.ofFn t)
  let S := cut q n R.2
  let T := cut p q S.2
  .ok (f R.1 S.1 T.1)

/-! ### Linear combinations -/

/-- `s l + s' l'`. -/
def linL {A : Type} [Add A] [SMul F A] (s s' : F) (l l' : List A) : List A :=
  List.zipWith (fun a b => s • a + s' • b) l l'

def PPE.combine (s s' : F) (equ equ' : PPE F G1 G2 GT) : PPE F G1 G2 GT :=
  ⟨linL s s' equ.a_consts equ'.a_consts, linL s s' equ.b_consts equ'.b_consts,
    List.zipWith (linL s s') equ.gamma equ'.gamma, s • equ.target + s' • equ'.target⟩

def MSMEG1.combine (s s' : F) (equ equ' : MSMEG1 F G1) : MSMEG1 F G1 :=
  ⟨linL s s' equ.a_consts equ'.a_consts, linL s s' equ.b_consts equ'.b_consts,
    List.zipWith (linL s s') equ.gamma equ'.gamma, s • equ.target + s' • equ'.target⟩

def MSMEG2.combine (s s' : F) (equ equ' : MSMEG2 F G2) : MSMEG2 F G2 :=
  ⟨linL s s' equ.a_consts equ'.a_consts, linL s s' equ.b_consts equ'.b_consts,
    List.zipWith (linL s s') equ.gamma equ'.gamma, s • equ.target + s' • equ'.target⟩

def QuadEqu.combine (s s' : F) (equ equ' : QuadEqu F) : QuadEqu F :=
  ⟨linL s s' equ.a_consts equ'.a_consts, linL s s' equ.b_consts equ'.b_consts,
    List.zipWith (linL s s') equ.gamma equ'.gamma, s • equ.target + s' • equ'.target⟩

/-- `s pf + s' pf'`. -/
def EquProof.combine (s s' : F) (pf pf' : EquProof F G1 G2) : EquProof F G1 G2 :=
  ⟨linL s s' pf.pi pf'.pi, linL s s' pf.theta pf'.theta, pf.equ_type, []⟩

end GS
