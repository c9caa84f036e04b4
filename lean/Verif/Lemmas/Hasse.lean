import Verif.Lemmas.Prime381
import Mathlib.NumberTheory.JacobiSum.Basic
import Mathlib.NumberTheory.LegendreSymbol.QuadraticChar.Basic
import Mathlib.RingTheory.RootsOfUnity.Complex

/-!
# The number of points of `y² = x³ + b` over a finite field

It is `q + 1 + 2 m + n` with `m² + m n + n² = q`, by Jacobi sums of a quadratic and a cubic character.
-/

namespace GS
open Finset Complex

section
variable {F : Type} [Field F] [Fintype F] [DecidableEq F]

theorem card_cube_roots (h3 : Fintype.card F % 3 = 1) {χ : MulChar F ℂ} (hχ : orderOf χ = 3) (t : F) :
    ((#{x : F | x ^ 3 = t} : ℕ) : ℂ) = 1 + χ t + χ⁻¹ t := by
  have hχ3 : χ ^ 3 = 1 := by rw [← hχ]; exact pow_orderOf_eq_one χ
  have hinv : χ⁻¹ = χ ^ 2 := by rw [inv_eq_iff_mul_eq_one, ← pow_succ', hχ3]
  by_cases h0 : t = 0
  · subst h0
    rw [MulChar.map_zero, MulChar.map_zero, add_zero, add_zero]
    have : ({x : F | x ^ 3 = 0} : Finset F) = {0} := by
      ext x; simp
    rw [this]; simp
  · have hv3 : χ t ^ 3 = 1 := by
      rw [← MulChar.pow_apply' χ three_ne_zero, hχ3, MulChar.one_apply (isUnit_iff_ne_zero.mpr h0)]
    have hiv : χ⁻¹ t = χ t ^ 2 := by rw [hinv, MulChar.pow_apply' χ two_ne_zero]
    by_cases hc : ∃ x, x ^ 3 = t
    · obtain ⟨x, hx⟩ := hc
      have hx0 : x ≠ 0 := by rintro rfl; exact h0 (by rw [← hx]; simp)
      have h1 : χ t = 1 := by
        rw [← hx, map_pow, ← MulChar.pow_apply' χ three_ne_zero, hχ3, MulChar.one_apply (isUnit_iff_ne_zero.mpr hx0)]
      obtain ⟨ζ, hζ⟩ : ∃ ζ : F, IsPrimitiveRoot ζ 3 := by
        obtain ⟨g, hg⟩ := IsCyclic.exists_ofOrder_eq_natCard (α := Fˣ)
        have hd : 3 ∣ orderOf g := by
          rw [hg, Nat.card_eq_fintype_card, Fintype.card_units]; omega
        have : IsPrimitiveRoot (g ^ (orderOf g / 3)) 3 := by
          refine (IsPrimitiveRoot.orderOf g).pow (orderOf_pos g) ?_
          rw [Nat.div_mul_cancel hd]
        exact ⟨_, this.map_of_injective (f := Units.coeHom F) Units.val_injective⟩
      have hcard := hζ.card_nthRoots t
      rw [if_pos ⟨x, hx⟩] at hcard
      have : ({x : F | x ^ 3 = t} : Finset F) = (Polynomial.nthRoots 3 t).toFinset := by
        ext y; simp [Polynomial.mem_nthRoots (show 0 < 3 by norm_num)]
      rw [this, Multiset.toFinset_card_of_nodup (hζ.nthRoots_nodup h0), hcard, hiv, h1]
      norm_num
    · have hne : χ t ≠ 1 := by
        intro h1
        apply hc
        obtain ⟨g, hg⟩ := IsCyclic.exists_monoid_generator (α := Fˣ)
        obtain ⟨k, hk⟩ := Submonoid.mem_powers_iff _ _ |>.mp (hg (Units.mk0 t h0))
        have hg3 : χ g ^ 3 = 1 := by
          rw [← MulChar.pow_apply' χ three_ne_zero, hχ3, MulChar.one_apply g.isUnit]
        have hg1 : χ g ≠ 1 := by
          intro hg1
          have : χ = 1 := by
            ext u
            obtain ⟨j, rfl⟩ := Submonoid.mem_powers_iff _ _ |>.mp (hg u)
            rw [Units.val_pow_eq_pow_val, map_pow, hg1, one_pow, MulChar.one_apply (g.isUnit.pow j)]
          rw [this, orderOf_one] at hχ
          omega
        have ho := orderOf_eq_prime hg3 hg1
        have hkt : χ g ^ k = 1 := by
          rw [← map_pow, ← Units.val_pow_eq_pow_val, hk]; exact h1
        obtain ⟨j, rfl⟩ := ho ▸ orderOf_dvd_of_pow_eq_one hkt
        refine ⟨(g : F) ^ j, ?_⟩
        rw [← pow_mul, mul_comm, ← Units.val_pow_eq_pow_val, hk, Units.val_mk0]
      have : ({x : F | x ^ 3 = t} : Finset F) = ∅ := by
        ext x
        simp only [mem_filter, mem_univ, true_and, notMem_empty, iff_false]
        exact fun h => hc ⟨x, h⟩
      rw [this, hiv]
      have hs : (χ t - 1) * (1 + χ t + χ t ^ 2) = 0 := by linear_combination hv3
      rcases mul_eq_zero.mp hs with h | h
      · exact absurd (sub_eq_zero.mp h) hne
      · rw [h]; simp

/-- Elements of `ℤ[μ]` for a primitive sixth root of unity. -/
theorem mem_adjoin_six {μ : ℂ} (hμ : μ ^ 2 = μ - 1) {z : ℂ} (hz : z ∈ Algebra.adjoin ℤ {μ}) : ∃ m n : ℤ, z = m + n * μ := by
  induction hz using Algebra.adjoin_induction with
  | mem x hx => exact ⟨0, 1, by rw [Set.mem_singleton_iff.mp hx]; simp⟩
  | algebraMap k => exact ⟨k, 0, by simp⟩
  | add x y _ _ hx hy =>
    obtain ⟨m, n, rfl⟩ := hx
    obtain ⟨m', n', rfl⟩ := hy
    exact ⟨m + m', n + n', by push_cast; ring⟩
  | mul x y _ _ hx hy =>
    obtain ⟨m, n, rfl⟩ := hx
    obtain ⟨m', n', rfl⟩ := hy
    exact ⟨m * m' - n * n', m * n' + n * m' + n * n', by push_cast; linear_combination (n * n' : ℂ) * hμ⟩

/-- The number of solutions of `y² = x³ + b`. -/
theorem card_cubic (h3 : Fintype.card F % 3 = 1) (h2 : ringChar F ≠ 2) {b : F} (hb : b ≠ 0) :
    ∃ m n : ℤ, m ^ 2 + m * n + n ^ 2 = Fintype.card F ∧
      (Fintype.card {a : F × F // a.2 * a.2 = a.1 * a.1 * a.1 + b} : ℤ) = Fintype.card F + (2 * m + n) := by
  obtain ⟨μ, hμ6⟩ : ∃ μ : ℂ, IsPrimitiveRoot μ 6 := ⟨_, Complex.isPrimitiveRoot_exp 6 (by norm_num)⟩
  have hμ : μ ^ 2 = μ - 1 := by
    have h1 : μ ^ 6 = 1 := hμ6.pow_eq_one
    have h3' : μ ^ 3 ≠ 1 := hμ6.pow_ne_one_of_pos_of_lt (by norm_num) (by norm_num)
    have h2' : μ ^ 2 ≠ 1 := hμ6.pow_ne_one_of_pos_of_lt (by norm_num) (by norm_num)
    have e1 : (μ ^ 3 - 1) * (μ ^ 3 + 1) = 0 := by linear_combination h1
    have e2 : μ ^ 3 = -1 := by
      rcases mul_eq_zero.mp e1 with h | h
      · exact absurd (sub_eq_zero.mp h) h3'
      · linear_combination h
    have e3 : (μ + 1) * (μ ^ 2 - μ + 1) = 0 := by linear_combination e2
    rcases mul_eq_zero.mp e3 with h | h
    · exact absurd (by rw [show μ = -1 by linear_combination h]; norm_num) h2'
    · linear_combination h
  have hω : IsPrimitiveRoot (μ ^ 2) 3 := hμ6.pow (by norm_num) (by norm_num)
  obtain ⟨χ, hχ⟩ := MulChar.exists_mulChar_orderOf F (n := 3) (by omega) hω
  let η : MulChar F ℂ := (quadraticChar F).ringHomComp (Int.castRingHom ℂ)
  have hη : ∀ x, η x = (quadraticChar F x : ℂ) := fun x => rfl
  have hηs : ∀ x, starRingEnd ℂ (η x) = η x := fun x => by rw [hη]; exact map_intCast _ _
  have hχ3 : χ ^ 3 = 1 := by rw [← hχ]; exact pow_orderOf_eq_one χ
  have hχ1 : χ ≠ 1 := by rintro rfl; rw [orderOf_one] at hχ; omega
  have hη1 : η ≠ 1 := by
    intro h
    obtain ⟨a, ha⟩ := FiniteField.exists_nonsquare h2
    have ha0 : a ≠ 0 := by rintro rfl; exact ha (IsSquare.zero)
    have : η a = 1 := by rw [h, MulChar.one_apply (isUnit_iff_ne_zero.mpr ha0)]
    rw [hη, quadraticChar_neg_one_iff_not_isSquare.mpr ha] at this
    norm_num at this
  have hη2 : η ^ 2 = 1 := by
    ext u
    rw [MulChar.pow_apply' η two_ne_zero, hη, MulChar.one_apply u.isUnit, ← Int.cast_pow, quadraticChar_sq_one u.ne_zero, Int.cast_one]
  have hχη : χ * η ≠ 1 := by
    intro h
    have : χ ^ 2 = 1 := by
      have := congrArg (· ^ 2) h
      simpa only [mul_pow, hη2, mul_one, one_pow] using this
    apply hχ1
    rw [← hχ3, pow_succ, this, one_mul]
  set J := jacobiSum χ η with hJ
  have hJJ : J * starRingEnd ℂ J = Fintype.card F := by
    have := jacobiSum_mul_jacobiSum_inv (F := F) (F' := ℂ) (by rw [ringChar.eq_zero]; exact (CharP.ringChar_ne_zero_of_finite F).symm) hχ1 hη1 hχη
    rw [← this, ← MulChar.star_eq_inv, ← MulChar.star_eq_inv]
    congr 1
    exact (jacobiSum_ringHomComp χ η (starRingEnd ℂ)).symm
  let A := χ (-b) * η b * J
  have hAA : A * starRingEnd ℂ A = Fintype.card F := by
    have e1 : χ (-b) * starRingEnd ℂ (χ (-b)) = 1 := by
      have : starRingEnd ℂ (χ (-b)) = χ⁻¹ (-b) := MulChar.star_apply' χ (-b)
      rw [this, ← MulChar.mul_apply, mul_inv_cancel, MulChar.one_apply (isUnit_iff_ne_zero.mpr (neg_ne_zero.mpr hb))]
    have e2 : η b * η b = 1 := by
      rw [← MulChar.mul_apply, ← pow_two, hη2, MulChar.one_apply (isUnit_iff_ne_zero.mpr hb)]
    simp only [A, map_mul, hηs]
    linear_combination (η b * η b * (J * starRingEnd ℂ J)) * e1 + (J * starRingEnd ℂ J) * e2 + hJJ
  have hAm : A ∈ Algebra.adjoin ℤ {μ} := by
    have hχ6 : χ ^ 6 = 1 := by rw [show 6 = 3 * 2 by rfl, pow_mul, hχ3, one_pow]
    have hη6 : η ^ 6 = 1 := by rw [show 6 = 2 * 3 by rfl, pow_mul, hη2, one_pow]
    exact Subalgebra.mul_mem _ (Subalgebra.mul_mem _ (MulChar.apply_mem_algebraAdjoin_of_pow_eq_one hχ6 hμ6 _)
      (MulChar.apply_mem_algebraAdjoin_of_pow_eq_one hη6 hμ6 _)) (jacobiSum_mem_algebraAdjoin_of_pow_eq_one hχ6 hη6 hμ6)
  obtain ⟨m, n, hA⟩ := mem_adjoin_six hμ hAm
  have hcount : (Fintype.card {a : F × F // a.2 * a.2 = a.1 * a.1 * a.1 + b} : ℂ) = Fintype.card F + (A + starRingEnd ℂ A) := by
    have s1 : ∀ x : F, ((#{y : F | y * y = x * x * x + b} : ℕ) : ℂ) = 1 + η (x ^ 3 + b) := by
      intro x
      have := quadraticChar_card_sqrts h2 (x ^ 3 + b)
      rw [hη, add_comm (1 : ℂ)]
      have h : ((({y : F | y ^ 2 = x ^ 3 + b} : Set F).toFinset.card : ℤ) : ℂ) = ((quadraticChar F (x ^ 3 + b) + 1 : ℤ) : ℂ) := by rw [this]
      push_cast at h
      rw [← h]
      congr 2
      ext y
      simp only [mem_filter, mem_univ, true_and, Set.mem_toFinset, Set.mem_ofPred_eq]
      rw [show y ^ 2 = y * y by ring, show x ^ 3 = x * x * x by ring]
    have s2 : (Fintype.card {a : F × F // a.2 * a.2 = a.1 * a.1 * a.1 + b} : ℂ) = ∑ x : F, (1 + η (x ^ 3 + b)) := by
      rw [← Finset.sum_congr rfl fun x _ => s1 x, ← Nat.cast_sum, Fintype.card_subtype]
      congr 1
      rw [Finset.card_filter, ← Finset.univ_product_univ, Finset.sum_product]
      exact Finset.sum_congr rfl fun x _ => (Finset.card_filter _ _).symm
    have s3 : ∑ x : F, η (x ^ 3 + b) = ∑ t : F, (1 + χ t + χ⁻¹ t) * η (t + b) := by
      rw [← Finset.sum_fiberwise (s := univ) (g := fun x : F => x ^ 3) (f := fun x => η (x ^ 3 + b))]
      refine Finset.sum_congr rfl fun t _ => ?_
      rw [← card_cube_roots h3 hχ t, ← nsmul_eq_mul, ← Finset.sum_const]
      exact Finset.sum_congr rfl fun x hx => by rw [(Finset.mem_filter.mp hx).2]
    have s4 : ∀ ψ : MulChar F ℂ, ∑ t : F, ψ t * η (t + b) = ψ (-b) * η b * jacobiSum ψ η := by
      intro ψ
      rw [jacobiSum, Finset.mul_sum, ← Equiv.sum_comp (Equiv.mulLeft₀ (-b) (neg_ne_zero.mpr hb))]
      refine Finset.sum_congr rfl fun t _ => ?_
      rw [show Equiv.mulLeft₀ (-b) (neg_ne_zero.mpr hb) t = -b * t from rfl, map_mul, show -b * t + b = b * (1 - t) by ring, map_mul]
      ring
    have s5 : ∑ t : F, η (t + b) = 0 := by
      rw [← MulChar.sum_eq_zero_of_ne_one hη1, ← Equiv.sum_comp (Equiv.addRight b) (fun t => η t)]
      rfl
    have s6 : χ⁻¹ (-b) * η b * jacobiSum χ⁻¹ η = starRingEnd ℂ A := by
      have e1 : starRingEnd ℂ (χ (-b)) = χ⁻¹ (-b) := MulChar.star_apply' χ (-b)
      have e2 : starRingEnd ℂ J = jacobiSum χ⁻¹ η := by
        rw [← MulChar.star_eq_inv]
        refine (jacobiSum_ringHomComp χ η (starRingEnd ℂ)).symm.trans ?_
        congr 1
        ext u
        exact hηs u
      simp only [A, map_mul, hηs, e1, e2]
    rw [s2, Finset.sum_add_distrib, s3]
    simp only [add_mul, one_mul, Finset.sum_add_distrib, s4, s5, s6]
    simp [A, J]
  have hsum : μ + starRingEnd ℂ μ = 1 ∧ μ * starRingEnd ℂ μ = 1 := by
    have hn : μ * starRingEnd ℂ μ = 1 := by
      rw [Complex.mul_conj, Complex.normSq_eq_norm_sq, hμ6.norm'_eq_one (by norm_num)]; norm_num
    refine ⟨?_, hn⟩
    have h0 : μ ≠ 0 := hμ6.ne_zero (by norm_num)
    refine mul_left_cancel₀ h0 ?_
    linear_combination hμ + hn
  refine ⟨m, n, ?_, ?_⟩
  · have : ((m ^ 2 + m * n + n ^ 2 : ℤ) : ℂ) = (Fintype.card F : ℤ) := by
      have h := hAA
      rw [hA] at h
      simp only [map_add, map_mul, map_intCast] at h
      push_cast
      linear_combination h - (m * n : ℂ) * hsum.1 - (n ^ 2 : ℂ) * hsum.2
    exact_mod_cast this
  · have : ((Fintype.card {a : F × F // a.2 * a.2 = a.1 * a.1 * a.1 + b} : ℤ) : ℂ) = ((Fintype.card F + (2 * m + n) : ℤ) : ℂ) := by
      rw [Int.cast_natCast, hcount, hA]
      simp only [map_add, map_mul, map_intCast]
      push_cast
      linear_combination (n : ℂ) * hsum.1
    exact_mod_cast this

end
end GS
