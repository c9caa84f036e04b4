import Verif.Model.Bls381
import Mathlib.RingTheory.AdjoinRoot

/-!
# The target group of BLS12-381

`PairingOutput` holds an element of the field `Fq12`, a quadratic extension of a cubic extension of `Fq2`. Its test for membership of the target group
is modelled, and the format, which is that of `outputCodec` in `Verif/Model/Element.lean`. As there, the source is not in /repo; modelled are `fields/fq6.rs` and
`fields/fq12.rs` of ark-bls12-381 and `pairing.rs` of ark-ec.

Simplified: the arithmetic of the extensions is that of Mathlib.
-/

open Polynomial

namespace GS
variable (K : Type) [Field K]

/-- `Fq6Config::NONRESIDUE`, `1 + u`. For the target group of the curve of tests/prover.rs:6. -/
def xiFq6 : Fq2 K := ⟨1, 1⟩

/-- `Fq6`: `v³ = 1 + u`. For the target group of the curve of tests/prover.rs:6. -/
abbrev Fq6 := AdjoinRoot (X ^ 3 - C (xiFq6 K))

/-- `Fq12Config::NONRESIDUE`, `v`. For the target group of the curve of tests/prover.rs:6. -/
noncomputable def xiFq12 : Fq6 K := AdjoinRoot.root _

/-- `Fq12`: `w² = v`. For the target group of the curve of tests/prover.rs:6. -/
abbrev Fq12 := QuadraticAlgebra (Fq6 K) (xiFq12 K) 0

variable {K}

/-- `CubicExtField::new(c0, c1, c2)`: `c0 + c1 v + c2 v²`. For the target group of the curve of tests/prover.rs:6. -/
noncomputable def mkFq6 (c : Fq2 K × Fq2 K × Fq2 K) : Fq6 K := AdjoinRoot.mk _ (C c.1 + C c.2.1 * X + C c.2.2 * X ^ 2)

open scoped Classical in
/-- `Valid::check` of `PairingOutput`: the power with the order `r` of the scalar field is 1. For the target group of the curve of tests/prover.rs:6. -/
noncomputable def inGt (r : Nat) (f : Fq12 K) : Bool := decide (f ^ r = 1)

end GS
