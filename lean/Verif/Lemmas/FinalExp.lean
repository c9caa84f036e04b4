import Verif.Lemmas.Miller
import Mathlib.FieldTheory.Finite.Basic

/-! # The final exponentiation -/

open Polynomial

namespace GS

/-- The exponent of the final exponentiation: three times what would do. -/
def finalExp : Nat := 3 * ((p381 ^ 12 - 1) / r381)

theorem pow_eq_of_mod {G : Type} [Monoid G] {f : G} {n a b : Nat} (h : f ^ n = 1) (hab : a % n = b % n) : f ^ a = f ^ b := by
  rw [← Nat.div_add_mod a n, ← Nat.div_add_mod b n, pow_add, pow_add, pow_mul, pow_mul, h, one_pow, one_pow, hab]

section
variable {K : Type} [Field K] [DecidableEq K] [Fintype K] [Fact (∀ r : K, r ^ 2 ≠ -1 + 0 * r)] [Fact (Irreducible (X ^ 3 - C (xiFq6 K)))]
  [Fact (∀ b : Fq6 K, b ^ 2 ≠ xiFq12 K + 0 * b)] (hc : Fintype.card K = p381)

theorem v_ne : xiFq12 K ≠ 0 := fun h => by
  have := (Fact.out : ∀ b : Fq6 K, b ^ 2 ≠ xiFq12 K + 0 * b) 0
  apply this
  rw [h]; simp

theorem fq12_split (f : Fq12 K) : f = algebraMap (Fq6 K) (Fq12 K) f.re + algebraMap (Fq6 K) (Fq12 K) f.im * rootW K := by
  ext <;> simp [ofFq6, rootW]

include hc

theorem char12 : CharP (Fq12 K) p381 := by
  have h : CharP K p381 := (CharP.charP_iff_prime_eq_zero p381_prime).mpr (fq_zero hc)
  exact charP_of_injective_ringHom (inj1 K).injective p381

theorem fq12_unit {f : Fq12 K} (hf : f ≠ 0) : f ^ (p381 ^ 12 - 1) = 1 := by
  have := fq12_finite (K := K)
  have := Fintype.ofFinite (Fq12 K)
  rw [← fq12_card hc, Nat.card_eq_fintype_card]
  exact FiniteField.pow_card_sub_one_eq_one _ hf

theorem fq6_unit {f : Fq6 K} (hf : f ≠ 0) : f ^ (p381 ^ 6 - 1) = 1 := by
  have : Finite (Fq6 K) := Nat.finite_of_card_ne_zero (by rw [fq6_card hc]; decide +kernel)
  have := Fintype.ofFinite (Fq6 K)
  rw [← fq6_card hc, Nat.card_eq_fintype_card]
  exact FiniteField.pow_card_sub_one_eq_one _ hf

theorem v_half : xiFq12 K ^ ((p381 ^ 6 - 1) / 2) = -1 := by
  have e := two_exps.2.2.2.2.2.2.2.2
  have h2 : (2 : Fq6 K) ^ ((p381 - 1) / 2) = -1 := by
    have := congrArg (algebraMap (Fq2 K) (Fq6 K)) (congrArg (algebraMap K (Fq2 K)) (two_pow_half hc))
    simp only [map_pow, map_ofNat, map_neg, map_one] at this
    exact this
  rw [e.1, Nat.mul_div_cancel_left _ (by decide), pow_mul, v_cube, pow_mul, pow_mul, ← map_pow, xi_norm hc, map_ofNat, h2, (Nat.odd_iff.mpr e.2.1).neg_one_pow]

theorem w_half : rootW K ^ p381 ^ 6 = -rootW K := by
  have e : p381 ^ 6 = 2 * ((p381 ^ 6 - 1) / 2) + 1 := by decide +kernel
  rw [e, pow_succ, pow_mul, sq, rootW_sq, ← map_pow, v_half hc, map_neg, map_one, neg_one_mul]

/-- The conjugate is a power. -/
theorem star_eq_pow (f : Fq12 K) : star f = f ^ p381 ^ 6 := by
  have := char12 hc
  have := p381_fact
  have h6 (a : Fq6 K) : a ^ p381 ^ 6 = a := by
    by_cases ha : a = 0
    · rw [ha, zero_pow (by decide +kernel)]
    · have e : p381 ^ 6 = (p381 ^ 6 - 1) + 1 := by decide +kernel
      rw [e, pow_succ, fq6_unit hc ha, one_mul]
  conv_rhs => rw [fq12_split f, add_pow_char_pow, mul_pow, ← map_pow, ← map_pow, h6, h6, w_half hc]
  ext <;> simp [ofFq6, rootW]

/-- `final_exponentiation` fails only on 0, and raises everything else to a fixed power. -/
theorem finalExponentiation_eq (f : Fq12 K) [Decidable (f = 0)] : finalExponentiation f = if f = 0 then none else some (f ^ finalExp) := by
  rw [finalExponentiation]
  by_cases hf : f = 0
  · rw [if_pos hf, if_pos hf]
  · rw [if_neg hf, if_neg hf]
    have hN := fq12_unit hc hf
    have hi : f⁻¹ = f ^ (p381 ^ 12 - 2) := by
      apply inv_eq_of_mul_eq_one_right
      rw [← pow_succ', show p381 ^ 12 - 2 + 1 = p381 ^ 12 - 1 by decide +kernel, hN]
    simp only [expByX, frobeniusMap, star_eq_pow hc, hi, ← pow_mul, ← pow_add]
    refine congrArg some ?_
    generalize hE : (_ + _ : Nat) = E
    generalize hM : finalExp = E'
    apply pow_eq_of_mod hN
    rw [← hE, ← hM]
    decide +kernel

/-- Its results are in the target group. -/
theorem finalExp_root {f : Fq12 K} (hf : f ≠ 0) : (f ^ finalExp) ^ r381 = 1 := by
  rw [← pow_mul]
  refine (pow_eq_of_mod (b := 0) (fq12_unit hc hf) ?_).trans (pow_zero _)
  decide +kernel

theorem fq6_dies {a : Fq6 K} (ha : a ≠ 0) : (algebraMap (Fq6 K) (Fq12 K) a) ^ finalExp = 1 := by
  rw [← map_pow, pow_eq_of_mod (b := 0) (fq6_unit hc ha) (by decide +kernel), pow_zero, map_one]

theorem w_dies : rootW K ^ finalExp = 1 := by
  have e : finalExp = 2 * (finalExp / 2) := by decide +kernel
  rw [e, pow_mul, sq, rootW_sq, ← map_pow, pow_eq_of_mod (b := 0) (fq6_unit hc v_ne) (by decide +kernel), pow_zero, map_one]

end
end GS
