import Verif.Lemmas.Tower

/-!
# Frobenius maps and the squares of the cyclotomic subgroup
-/

open Polynomial

namespace GS.Tower

set_option linter.unusedSectionVars false

section
variable {S : Type} [Field S] [DecidableEq S] [Fintype S] [Fact (∀ r : S, r ^ 2 ≠ -1 + 0 * r)] [Fact (Irreducible (X ^ 3 - C (xiFq6 S)))]
  [Fact (∀ b : Fq6 S, b ^ 2 ≠ xiFq12 S + 0 * b)]

/-- The element with given coefficients at the powers of `w`. -/
noncomputable def ofCoeffs (a0 a1 a2 a3 a4 a5 : Fq2 S) : Fq12 S := ⟨mkFq6 (a0, a2, a4), mkFq6 (a1, a3, a5)⟩

theorem ofCoeffs_eq (a0 a1 a2 a3 a4 a5 : Fq2 S) : ofCoeffs a0 a1 a2 a3 a4 a5 =
    inj2 S a0 + inj2 S a1 * rootW S + inj2 S a2 * rootW S ^ 2 + inj2 S a3 * rootW S ^ 3 + inj2 S a4 * rootW S ^ 4 + inj2 S a5 * rootW S ^ 5 := by
  rw [ofCoeffs, fq12_split ⟨mkFq6 (a0, a2, a4), mkFq6 (a1, a3, a5)⟩]
  simp only [mkFq6_eq, map_add, map_mul, map_pow, ← rootW_sq, inj2, RingHom.comp_apply]
  ring

theorem ofCoeffs_inj {a0 a1 a2 a3 a4 a5 b0 b1 b2 b3 b4 b5 : Fq2 S} (h : ofCoeffs a0 a1 a2 a3 a4 a5 = ofCoeffs b0 b1 b2 b3 b4 b5) :
    a0 = b0 ∧ a1 = b1 ∧ a2 = b2 ∧ a3 = b3 ∧ a4 = b4 ∧ a5 = b5 := by
  have h1 := mkFq6_bijective.1 (congrArg QuadraticAlgebra.re h)
  have h2 := mkFq6_bijective.1 (congrArg QuadraticAlgebra.im h)
  simp only [Prod.mk.injEq] at h1 h2
  exact ⟨h1.1, h2.1, h1.2.1, h2.2.1, h1.2.2, h2.2.2⟩

theorem ofCoeffs_mul (a0 a1 a2 a3 a4 a5 b0 b1 b2 b3 b4 b5 : Fq2 S) : ofCoeffs a0 a1 a2 a3 a4 a5 * ofCoeffs b0 b1 b2 b3 b4 b5 =
    ofCoeffs (a0 * b0 + xiFq6 S * (a1 * b5 + a2 * b4 + a3 * b3 + a4 * b2 + a5 * b1))
      (a0 * b1 + a1 * b0 + xiFq6 S * (a2 * b5 + a3 * b4 + a4 * b3 + a5 * b2))
      (a0 * b2 + a1 * b1 + a2 * b0 + xiFq6 S * (a3 * b5 + a4 * b4 + a5 * b3))
      (a0 * b3 + a1 * b2 + a2 * b1 + a3 * b0 + xiFq6 S * (a4 * b5 + a5 * b4))
      (a0 * b4 + a1 * b3 + a2 * b2 + a3 * b1 + a4 * b0 + xiFq6 S * (a5 * b5))
      (a0 * b5 + a1 * b4 + a2 * b3 + a3 * b2 + a4 * b1 + a5 * b0) := by
  have h6 := rootW_six (K := S)
  simp only [ofCoeffs_eq, map_add, map_mul]
  linear_combination ((inj2 S a1 * inj2 S b5 + inj2 S a2 * inj2 S b4 + inj2 S a3 * inj2 S b3 + inj2 S a4 * inj2 S b2 + inj2 S a5 * inj2 S b1) * rootW S ^ 0 + (inj2 S a2 * inj2 S b5 + inj2 S a3 * inj2 S b4 + inj2 S a4 * inj2 S b3 + inj2 S a5 * inj2 S b2) * rootW S ^ 1 + (inj2 S a3 * inj2 S b5 + inj2 S a4 * inj2 S b4 + inj2 S a5 * inj2 S b3) * rootW S ^ 2 + (inj2 S a4 * inj2 S b5 + inj2 S a5 * inj2 S b4) * rootW S ^ 3 + (inj2 S a5 * inj2 S b5) * rootW S ^ 4) * h6

variable (hc : Fintype.card S = p381)
include hc

theorem fq2_pow (a : Fq2 S) (k : Nat) : a ^ p381 ^ k = if k % 2 = 1 then star a else a := by
  induction k with
  | zero => simp
  | succ k ih =>
    rw [pow_succ, pow_mul, ih]
    rcases Nat.mod_two_eq_zero_or_one k with h | h
    · rw [if_neg (by omega), if_pos (by omega), fq2_star hc]
    · rw [if_pos h, if_neg (by omega), ← fq2_star hc, star_star]

omit hc in
theorem six_dvd (k : Nat) : p381 ^ k = 1 + 6 * ((p381 ^ k - 1) / 6) := by
  have h : p381 ^ k % 6 = 1 := by rw [Nat.pow_mod, show p381 % 6 = 1 by decide +kernel, one_pow]; rfl
  generalize p381 ^ k = n at *
  omega

omit hc in
theorem w_frob (k : Nat) : rootW S ^ p381 ^ k = inj2 S (xiFq6 S ^ ((p381 ^ k - 1) / 6)) * rootW S := by
  conv_lhs => rw [six_dvd k]
  rw [pow_add, pow_one, pow_mul, rootW_six, ← map_pow, mul_comm]

theorem ofCoeffs_frob (k : Nat) {γ : Fq2 S} (hγ : γ = xiFq6 S ^ ((p381 ^ k - 1) / 6)) (a0 a1 a2 a3 a4 a5 : Fq2 S) : ofCoeffs a0 a1 a2 a3 a4 a5 ^ p381 ^ k =
    ofCoeffs (a0 ^ p381 ^ k) (a1 ^ p381 ^ k * γ) (a2 ^ p381 ^ k * γ ^ 2) (a3 ^ p381 ^ k * γ ^ 3) (a4 ^ p381 ^ k * γ ^ 4) (a5 ^ p381 ^ k * γ ^ 5) := by
  have := char12 hc
  have := p381_fact
  have hw := w_frob (S := S) k
  rw [← hγ] at hw
  generalize hq : p381 ^ k = q at *
  have hadd : ∀ x y : Fq12 S, (x + y) ^ q = x ^ q + y ^ q := fun x y => by rw [← hq]; exact add_pow_char_pow x y _ _
  have hwi : ∀ i, (rootW S ^ i) ^ q = (inj2 S γ * rootW S) ^ i := fun i => by rw [← pow_mul, mul_comm i q, pow_mul, hw]
  simp only [ofCoeffs_eq, hadd, mul_pow _ _ q, hwi, hw, map_mul, map_pow]
  ring

theorem omega_spec {ω : Fq2 S} (hω : ω = xiFq6 S ^ ((p381 ^ 2 - 1) / 6)) : ω ^ 2 - ω + 1 = 0 := by
  have e3 : (p381 ^ 2 - 1) / 6 * 3 = (p381 + 1) * ((p381 - 1) / 2) := by decide +kernel
  have e2 : (p381 ^ 2 - 1) / 6 * 2 = (p381 + 1) * ((p381 - 1) / 3) := by decide +kernel
  have h3 : ω ^ 3 = -1 := by
    have := congrArg (algebraMap S (Fq2 S)) (two_pow_half hc)
    rw [hω, ← pow_mul, e3, pow_mul, xi_norm hc]
    simpa only [map_pow, map_ofNat, map_neg, map_one] using this
  have h2 : ω ^ 2 ≠ 1 := by
    intro e
    rw [hω, ← pow_mul, e2, pow_mul, xi_norm hc] at e
    apply two_pow_third hc
    apply (algebraMap S (Fq2 S)).injective
    simpa only [map_pow, map_ofNat, map_one] using e
  have hprod : (ω + 1) * (ω ^ 2 - ω + 1) = 0 := by linear_combination h3
  rcases mul_eq_zero.1 hprod with h | h
  · exact absurd (by linear_combination (ω - 1) * h) h2
  · exact h

/-- Granger and Scott: squares in the cyclotomic subgroup from the squares of three pairs of coefficients. -/
theorem ofCoeffs_square (a0 a1 a2 a3 a4 a5 : Fq2 S)
    (h : ofCoeffs a0 a1 a2 a3 a4 a5 * ofCoeffs a0 a1 a2 a3 a4 a5 ^ p381 ^ 4 = ofCoeffs a0 a1 a2 a3 a4 a5 ^ p381 ^ 2) :
    ofCoeffs a0 a1 a2 a3 a4 a5 ^ 2 =
      ofCoeffs (3 * (a0 ^ 2 + xiFq6 S * a3 ^ 2) - 2 * a0) (3 * (xiFq6 S * (2 * (a2 * a5))) + 2 * a1) (3 * (a1 ^ 2 + xiFq6 S * a4 ^ 2) - 2 * a2)
        (3 * (2 * (a0 * a3)) + 2 * a3) (3 * (a2 ^ 2 + xiFq6 S * a5 ^ 2) - 2 * a4) (3 * (2 * (a1 * a4)) + 2 * a5) := by
  obtain ⟨ω, hω'⟩ : ∃ ω, ω = xiFq6 S ^ ((p381 ^ 2 - 1) / 6) := ⟨_, rfl⟩
  have hω := omega_spec hc hω'
  have h1 := fun b0 b1 b2 b3 b4 b5 => ofCoeffs_frob hc 2 hω' b0 b1 b2 b3 b4 b5
  simp only [fq2_pow hc _ 2, show ¬(2 % 2 = 1) by decide, if_false] at h1
  have h2 : ∀ x : Fq12 S, x ^ p381 ^ 4 = (x ^ p381 ^ 2) ^ p381 ^ 2 := fun x => by
    rw [← pow_mul]
    exact congrArg (x ^ ·) (by decide +kernel)
  have w2 : ω ^ 2 = ω - 1 := by linear_combination hω
  have w3 : ω ^ 3 = -1 := by linear_combination (ω + 1) * hω
  have w4 : ω ^ 4 = -ω := by linear_combination (ω ^ 2 + ω) * hω
  have w5 : ω ^ 5 = 1 - ω := by linear_combination (ω ^ 3 + ω ^ 2 - 1) * hω
  rw [h2, h1, h1, ofCoeffs_mul] at h
  simp only [w2, w3, w4, w5] at h
  have m1 : ∀ a : Fq2 S, a * ω * ω = a * (ω - 1) := fun a => by linear_combination a * hω
  have m2 : ∀ a : Fq2 S, a * (ω - 1) * (ω - 1) = a * (-ω) := fun a => by linear_combination a * hω
  have m3 : ∀ a : Fq2 S, a * (-1) * (-1) = a * 1 := fun a => by ring
  have m4 : ∀ a : Fq2 S, a * (-ω) * (-ω) = a * (ω - 1) := fun a => by linear_combination a * hω
  have m5 : ∀ a : Fq2 S, a * (1 - ω) * (1 - ω) = a * (-ω) := fun a => by linear_combination a * hω
  simp only [m1, m2, m3, m4, m5] at h
  obtain ⟨e0, e1, e2, e3, e4, e5⟩ := ofCoeffs_inj h
  rw [pow_two, ofCoeffs_mul]
  congr 1
  · linear_combination (-2) * 1 * e0
  · linear_combination (2) * (1 - ω) * e1 - (2) * (-1) * ((1) * (a0 * a1) + (-1) * (a2 * a5 * xiFq6 S) + (1) * (a3 * a4 * xiFq6 S) + (-1) * (a5 * a2 * xiFq6 S) + (-1) * a1) * hω
  · linear_combination (-2) * (-ω) * e2 - (-2) * (-1) * ((-1) * (a0 * a2) + (1) * (a1 * a1) + (-1) * (a3 * a5 * xiFq6 S) + (1) * (a4 * a4 * xiFq6 S) + (-1) * a2) * hω
  · linear_combination (2) * (-1) * e3
  · linear_combination (-2) * (ω - 1) * e4 - (-2) * (1) * ((1) * (a0 * a4) + (-1) * (a2 * a2) + (1) * (a3 * a1) + (-1) * (a5 * a5 * xiFq6 S) + (1) * a4) * hω
  · linear_combination (2) * ω * e5 - (2) * (1) * ((-1) * (a0 * a5) + (1) * (a1 * a4) + (-1) * (a3 * a2) + (1) * (a4 * a1) + (1) * a5) * hω

end

end GS.Tower
