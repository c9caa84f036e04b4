import Verif.Lemmas.BlsField
import Verif.Spec.Sampled

/-! # The groups of BLS12-381 -/

namespace GS

instance fq_no_root : Fact (∀ r : ZMod p381, r ^ 2 ≠ -1 + 0 * r) := ⟨no_root (ZMod.card p381)⟩

/-- The curve of the first group. -/
noncomputable def blsG1 : SWCurve (ZMod p381) := g1Curve leFq

/-- The curve of the second group. -/
noncomputable def blsG2 : SWCurve (Fq2 (ZMod p381)) := g2Curve leFq

/-- Coordinates in the first group are written in 48 bytes. -/
def blsFq : BeField (ZMod p381) := beFp p381 48

/-- Coordinates in the second group are written in twice as many. -/
def blsFq2 : BeField (Fq2 (ZMod p381)) := beQuad blsFq (fun a => ⟨a.1, a.2⟩) (fun z => (z.re, z.im))

/-- Scalars are written in 32 bytes. -/
def blsFr : Codec (ZMod r381) := (fpCodec r381 32 33).plain

open scoped Classical in
/-- Multiplication by the cofactor `k`, of the points of the curve. -/
noncomputable def SWCurve.byCofactor {B : Type} [Field B] [DecidableEq B] (E : SWCurve B) (r k : Nat) (P : Affine B) : E.torsion r :=
  if h : ∃ q : E.torsion r, ∃ p, E.coords p = P ∧ q.1 = k • p then h.choose else 0

end GS
