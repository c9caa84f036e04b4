import Verif.Model.Prove
import Mathlib.Algebra.Field.Defs

/-! # Sizes accepted by the verifiers; the public part of a proof -/

namespace GS
variable {F G1 G2 : Type}

/-- Sizes of `gamma` on which the verifiers do not panic, for `m` commitments on the left and `n` on the right:
either there are no commitments on the left, and `gamma` is empty (no rows, or an empty first row) or there are no
commitments on the right either; or there are commitments on both sides, `gamma` has `m` rows, the first of
length `n`, the others of length at least `n`. -/
def GammaDom (m n : Nat) (gamma : Matrix F) : Prop :=
  (m = 0 ∧ (n = 0 ∨ gamma = [] ∨ ∃ l, gamma = [] :: l)) ∨
  (0 < m ∧ 0 < n ∧ gamma.length = m ∧ (∀ r, gamma.head? = some r → r.length = n) ∧ ∀ r ∈ gamma, n ≤ r.length)

/-- The data of a `CProof` other than the recorded randomness. -/
def CProof.publicPart (cp : CProof F G1 G2) : List (Com G1) × List (Com G2) × List (List (Com G2) × List (Com G1) × EquType) :=
  (cp.xcoms.coms, cp.ycoms.coms, cp.equ_proofs.map fun pf => (pf.pi, pf.theta, pf.equ_type))

end GS
