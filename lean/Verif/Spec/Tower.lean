import Verif.Model.Tower

/-! # What coordinates in the tower of fields stand for -/

namespace GS.Tower

/-- The operations on `R` compute those of the field `S`, and every element of `S` is held by one value. -/
structure Models {R S : Type} [Ops R] [Field S] (φ : R → S) : Prop where
  bij : Function.Bijective φ
  zero : φ 0 = 0
  one : φ 1 = 1
  add : ∀ a b, φ (a + b) = φ a + φ b
  sub : ∀ a b, φ (a - b) = φ a - φ b
  neg : ∀ a, φ (-a) = -φ a
  mul : ∀ a b, φ (a * b) = φ a * φ b
  double : ∀ a, φ (double a) = 2 * φ a
  square : ∀ a, φ (square a) = φ a ^ 2
  sop2 : ∀ a b c d, φ (sop2 a b c d) = φ a * φ c + φ b * φ d
  inverse_zero : ∀ a, φ a = 0 → inverse a = none
  inverse : ∀ a, φ a ≠ 0 → ∃ b, inverse a = some b ∧ φ b = (φ a)⁻¹

/-- What a pair stands for. -/
def val2 {R S : Type} [Field S] (φ : R → S) (a : Fp2 R) : Fq2 S := ⟨φ a.c0, φ a.c1⟩

/-- What a triple stands for. -/
noncomputable def val6 {R S : Type} [Field S] (φ : R → S) (a : Fp6 R) : Fq6 S := mkFq6 (val2 φ a.c0, val2 φ a.c1, val2 φ a.c2)

/-- What a pair of triples stands for. -/
noncomputable def val12 {R S : Type} [Field S] (φ : R → S) (a : Fp12 R) : Fq12 S := ⟨val6 φ a.c0, val6 φ a.c1⟩

/-- The point that coordinates stand for. -/
def valA {R S : Type} (φ : R → S) (P : Affine R) : Affine S := ⟨φ P.x, φ P.y, P.infinity⟩

section
variable {R S : Type} [Field S]

/-- The cyclotomic subgroup: the elements whose power `p⁴ - p² + 1` is 1, said without a difference. -/
def InCyc (x : Fq12 S) : Prop := x ≠ 0 ∧ x * x ^ p381 ^ 4 = x ^ p381 ^ 2

/-- The constants of the Frobenius map at one power. -/
structure TableFor (φ : R → S) (T : FrobTable R) (k : Nat) : Prop where
  c6 : val2 φ T.c6 = xiFq6 S ^ ((p381 ^ k - 1) / 6)
  c3 : val2 φ T.c3 = xiFq6 S ^ ((p381 ^ k - 1) / 3)
  c23 : val2 φ T.c23 = xiFq6 S ^ (2 * (p381 ^ k - 1) / 3)
  odd : T.odd = decide (k % 2 = 1)

end

end GS.Tower
