import Verif.Model.Target
import Verif.Lemmas.BlsG2
import Verif.Lemmas.BlsField
import Mathlib.FieldTheory.KummerPolynomial
import Mathlib.RingTheory.RootsOfUnity.PrimitiveRoots

/-! # The extensions of the base field of BLS12-381 are fields -/

open Polynomial

namespace GS

section cubic
variable {R : Type} [Field R]

theorem cubic_bijective {f : R[X]} (hf : f.Monic) (hd : f.natDegree = 3) :
    Function.Bijective fun c : R × R × R => AdjoinRoot.mk f (C c.1 + C c.2.1 * X + C c.2.2 * X ^ 2) := by
  have hdeg : ∀ c : R × R × R, (C c.1 + C c.2.1 * X + C c.2.2 * X ^ 2).degree < f.degree := fun c => by
    rw [degree_eq_natDegree hf.ne_zero, hd]
    compute_degree!
  constructor
  · intro c c' h
    have h' := AdjoinRoot.mk_eq_mk.mp h
    have h0 := eq_zero_of_dvd_of_degree_lt h' ((degree_sub_le _ _).trans_lt (max_lt (hdeg c) (hdeg c')))
    have h1 := sub_eq_zero.mp h0
    have e0 := congrArg (fun q => q.coeff 0) h1
    have e1 := congrArg (fun q => q.coeff 1) h1
    have e2 := congrArg (fun q => q.coeff 2) h1
    simp [coeff_X, coeff_C] at e0 e1 e2
    exact Prod.ext e0 (Prod.ext e1 e2)
  · intro x
    obtain ⟨g, rfl⟩ := AdjoinRoot.mk_surjective x
    have hlt := degree_modByMonic_lt g hf
    rw [degree_eq_natDegree hf.ne_zero, hd] at hlt
    refine ⟨((g %ₘ f).coeff 0, (g %ₘ f).coeff 1, (g %ₘ f).coeff 2), ?_⟩
    have hg : C ((g %ₘ f).coeff 0) + C ((g %ₘ f).coeff 1) * X + C ((g %ₘ f).coeff 2) * X ^ 2 = g %ₘ f := by
      ext n
      rcases n with _ | _ | _ | n
      · simp
      · simp [coeff_X, coeff_C]
      · simp [coeff_X, coeff_C]
      · have : (g %ₘ f).coeff (n + 3) = 0 := coeff_eq_zero_of_degree_lt (lt_of_lt_of_le hlt (by norm_cast; omega))
        simp [coeff_X, coeff_C, coeff_X_pow, this]
    show AdjoinRoot.mk f _ = _
    rw [hg, AdjoinRoot.mk_eq_mk]
    exact ⟨-(g /ₘ f), by rw [modByMonic_eq_sub_mul_div g f]; ring⟩

end cubic

theorem two_exps : powMod p381 381 2 ((p381 - 1) / 2) = p381 - 1 ∧ Nat.gcd (powMod p381 381 2 ((p381 - 1) / 3) + (p381 - 1)) p381 = 1 ∧
    (p381 - 1) / 2 < 2 ^ 381 ∧ (p381 - 1) / 3 < 2 ^ 381 ∧ p381 + 1 = 2 * (2 * ((p381 + 1) / 4)) ∧ (p381 + 1) / 4 % 2 = 1 ∧
    p381 ^ 2 - 1 = 3 * ((p381 + 1) * ((p381 - 1) / 3)) ∧ p381 ^ 2 - 1 = 2 * ((p381 + 1) * ((p381 - 1) / 2)) ∧
    p381 ^ 6 - 1 = 2 * (3 * ((p381 + 1) * ((p381 - 1) / 2) * ((p381 ^ 4 + p381 ^ 2 + 1) / 3))) ∧ (p381 ^ 4 + p381 ^ 2 + 1) / 3 % 2 = 1 ∧
    (p381 ^ 12 - 1) % r381 = 0 ∧ 2 * (2 * ((p381 + 1) / 4)) = 1 + ((p381 - 1) / 2 + ((p381 - 1) / 2 + 1)) := by
  decide +kernel

section fields
variable {K : Type} [Field K] [DecidableEq K] [Fintype K] (hc : Fintype.card K = p381)
include hc

theorem two_pow_half : (2 : K) ^ ((p381 - 1) / 2) = -1 := by
  have hp := fq_zero hc
  have h := two_exps.1
  rw [powMod_eq _ _ _ _ two_exps.2.2.1] at h
  have h' : ((2 ^ ((p381 - 1) / 2) : Nat) : K) = ((p381 - 1 : Nat) : K) := by
    rw [← natCast_mod hp, h]
  have h1 : ((p381 - 1 : Nat) : K) = -1 := by
    rw [Nat.cast_sub (by decide +kernel), hp]; simp
  rw [h1] at h'
  push_cast at h'
  exact h'

theorem two_pow_third : (2 : K) ^ ((p381 - 1) / 3) ≠ 1 := by
  have hp := fq_zero hc
  intro h
  apply natCast_ne_zero_of_gcd hp two_exps.2.1
  have h1 : ((p381 - 1 : Nat) : K) = -1 := by
    rw [Nat.cast_sub (by decide +kernel), hp]; simp
  rw [Nat.cast_add, powMod_eq _ _ _ _ two_exps.2.2.2.1, natCast_mod hp, h1]
  push_cast
  rw [h]
  ring

variable [Fact (∀ r : K, r ^ 2 ≠ -1 + 0 * r)]

/-- The norm of `1 + u`. -/
theorem xi_norm : xiFq6 K ^ (p381 + 1) = 2 := by
  have hsq : xiFq6 K ^ 2 = 2 * fq2u := by
    rw [sq, two_mul]
    ext <;> simp [xiFq6, fq2u]
  have h2 : (2 : Fq2 K) ^ ((p381 - 1) / 2) = -1 := by
    have := congrArg (algebraMap K (Fq2 K)) (two_pow_half hc)
    rwa [map_pow, map_ofNat, map_neg, map_one] at this
  have e := two_exps.2.2.2.2
  rw [e.1, pow_mul, hsq, mul_pow, pow_mul fq2u, sq fq2u, fq2u_sq, (Nat.odd_iff.mpr e.2.1).neg_one_pow]
  have : (2 : Fq2 K) ^ (2 * ((p381 + 1) / 4)) = -2 := by
    rw [p381_exps.1, pow_succ, h2]; ring
  rw [this]; ring

omit hc [DecidableEq K] [Fintype K] [Fact (∀ r : K, r ^ 2 ≠ -1 + 0 * r)] in
theorem xi_ne : xiFq6 K ≠ 0 := fun h => by
  have := congrArg QuadraticAlgebra.re h
  simp [xiFq6] at this

theorem fq2_unit {b : Fq2 K} (hb : b ≠ 0) : b ^ (p381 ^ 2 - 1) = 1 := by
  rw [← fq2_card hc]; exact FiniteField.pow_card_sub_one_eq_one b hb

theorem xi_no_cube (b : Fq2 K) : b ^ 3 ≠ xiFq6 K := by
  intro h
  have hb : b ≠ 0 := by rintro rfl; exact xi_ne (by rw [← h]; ring)
  have h1 := fq2_unit hc hb
  rw [two_exps.2.2.2.2.2.2.1, pow_mul, h, pow_mul, xi_norm hc] at h1
  have := two_pow_third hc
  apply this
  have h2 : algebraMap K (Fq2 K) (2 ^ ((p381 - 1) / 3)) = algebraMap K (Fq2 K) 1 := by
    rw [map_pow, map_ofNat, map_one]; exact h1
  exact (algebraMap K (Fq2 K)).injective h2

theorem xi_irreducible : Irreducible (X ^ 3 - C (xiFq6 K)) := X_pow_sub_C_irreducible_of_prime Nat.prime_three (xi_no_cube hc)

omit hc [DecidableEq K] [Fintype K] in
theorem xi_monic : (X ^ 3 - C (xiFq6 K)).Monic := monic_X_pow_sub_C _ (by decide)

omit hc [DecidableEq K] [Fintype K] in
theorem xi_degree : (X ^ 3 - C (xiFq6 K)).natDegree = 3 := natDegree_X_pow_sub_C

omit hc [DecidableEq K] [Fintype K] in
theorem mkFq6_bijective : Function.Bijective (mkFq6 (K := K)) := cubic_bijective xi_monic xi_degree

/-- Elements of the cubic extension have one triple of coefficients. -/
noncomputable def fq6Equiv : Fq2 K × Fq2 K × Fq2 K ≃ Fq6 K := Equiv.ofBijective (mkFq6 (K := K)) mkFq6_bijective

theorem fq6_card : Nat.card (Fq6 K) = p381 ^ 6 := by
  rw [← Nat.card_congr (fq6Equiv (K := K)), Nat.card_prod, Nat.card_prod, Nat.card_eq_fintype_card, fq2_card hc]
  ring

variable [Fact (Irreducible (X ^ 3 - C (xiFq6 K)))]

omit hc [DecidableEq K] [Fintype K] in
theorem v_cube : xiFq12 K ^ 3 = algebraMap (Fq2 K) (Fq6 K) (xiFq6 K) := by
  have := AdjoinRoot.eval₂_root (X ^ 3 - C (xiFq6 K))
  simp only [eval₂_sub, eval₂_X_pow, eval₂_C] at this
  exact sub_eq_zero.mp this

theorem v_no_square (b : Fq6 K) : b ^ 2 ≠ xiFq12 K + 0 * b := by
  intro h
  rw [zero_mul, add_zero] at h
  have : Finite (Fq6 K) := .of_equiv _ (fq6Equiv (K := K))
  have := Fintype.ofFinite (Fq6 K)
  have hb : b ≠ 0 := by
    rintro rfl
    have h3 := v_cube (K := K)
    rw [← h] at h3
    apply xi_ne (K := K)
    apply (algebraMap (Fq2 K) (Fq6 K)).injective
    rw [← h3]; simp
  have h1 := FiniteField.pow_card_sub_one_eq_one b hb
  have e := two_exps.2.2.2.2.2.2.2.2
  rw [← Nat.card_eq_fintype_card, fq6_card hc, e.1, pow_mul, h, pow_mul, v_cube, pow_mul, pow_mul, ← map_pow, xi_norm hc] at h1
  have h2 : (2 : Fq6 K) ^ ((p381 - 1) / 2) = -1 := by
    have := congrArg (algebraMap (Fq2 K) (Fq6 K)) (congrArg (algebraMap K (Fq2 K)) (two_pow_half hc))
    simp only [map_pow, map_ofNat, map_neg, map_one] at this
    exact this
  rw [map_ofNat, h2, (Nat.odd_iff.mpr e.2.1).neg_one_pow] at h1
  have h0 : (2 : Fq6 K) = 0 := by linear_combination -h1
  have h4 := h2
  rw [h0, zero_pow (by decide +kernel)] at h4
  exact one_ne_zero (neg_eq_zero.mp h4.symm)

omit hc [DecidableEq K] [Fact (Irreducible (X ^ 3 - C (xiFq6 K)))] in
theorem fq12_finite : Finite (Fq12 K) := by
  classical
  have : Finite (Fq6 K) := .of_equiv _ (fq6Equiv (K := K))
  exact .of_equiv _ (QuadraticAlgebra.equivProd (xiFq12 K) 0).symm

theorem fq12_card : Nat.card (Fq12 K) = p381 ^ 12 := by
  rw [Nat.card_congr (QuadraticAlgebra.equivProd (xiFq12 K) 0), Nat.card_prod, fq6_card hc]
  ring

variable [Fact (∀ b : Fq6 K, b ^ 2 ≠ xiFq12 K + 0 * b)]

/-- The target field has `r` elements whose power with `r` is 1. -/
theorem gt_primitive : ∃ g : Fq12 K, IsPrimitiveRoot g r381 := by
  have := fq12_finite (K := K)
  have := Fact.mk r381_prime
  have hd : r381 ∣ Nat.card (Fq12 K)ˣ := by
    rw [Nat.card_units, fq12_card hc]
    exact Nat.dvd_of_mod_eq_zero two_exps.2.2.2.2.2.2.2.2.2.2.1
  obtain ⟨g, hg⟩ := exists_prime_orderOf_dvd_card' r381 hd
  refine ⟨g, ?_⟩
  rw [IsPrimitiveRoot.coe_units_iff, ← hg]
  exact IsPrimitiveRoot.orderOf g

end fields

end GS
