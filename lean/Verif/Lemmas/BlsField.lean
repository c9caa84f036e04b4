import Verif.Lemmas.BlsG2

/-! # Square roots and order in the base fields of BLS12-381 -/

set_option linter.unusedSectionVars false

namespace GS

theorem p381_exps : 2 * ((p381 + 1) / 4) = (p381 - 1) / 2 + 1 ∧ 2 * ((p381 - 1) / 2) = p381 - 1 ∧ (p381 - 1) / 2 % 2 = 1 ∧ p381 - 1 ≠ 0 := by decide +kernel

section
variable {K : Type} [Field K] [DecidableEq K] [Fintype K] (hc : Fintype.card K = p381)

theorem fq_zero (hc : Fintype.card K = p381) : (p381 : K) = 0 := by rw [← hc]; exact FiniteField.cast_card_eq_zero K

include hc

theorem fq_pow {a : K} (ha : a ≠ 0) : (a ^ ((p381 - 1) / 2)) ^ 2 = 1 := by
  rw [← pow_mul, Nat.mul_comm, p381_exps.2.1, ← hc, FiniteField.pow_card_sub_one_eq_one a ha]

theorem fq_pm {a : K} (ha : a ≠ 0) : a ^ ((p381 - 1) / 2) = 1 ∨ a ^ ((p381 - 1) / 2) = -1 := by
  have h := fq_pow hc ha
  generalize a ^ ((p381 - 1) / 2) = t at *
  have : (t - 1) * (t + 1) = 0 := by linear_combination h
  rcases mul_eq_zero.mp this with h | h
  · exact .inl (sub_eq_zero.mp h)
  · exact .inr (eq_neg_of_add_eq_zero_left h)

theorem neg_one_pow_fq : (-1 : K) ^ ((p381 - 1) / 2) = -1 := Odd.neg_one_pow (Nat.odd_iff.mpr p381_exps.2.2.1)

theorem neg_one_ne : (-1 : K) ≠ 1 := by
  intro h
  apply p381_two (fq_zero hc)
  linear_combination -h

theorem isQr_sq {x : K} (hx : x ≠ 0) : isQr (x * x) = true := by
  rw [isQr, decide_eq_true_iff, mul_pow, ← sq, fq_pow hc hx]

theorem isQr_neg_sq {x : K} (hx : x ≠ 0) : isQr (-(x * x)) = false := by
  rw [isQr, decide_eq_false_iff_not, ← neg_one_mul, mul_pow, mul_pow, ← sq, fq_pow hc hx, neg_one_pow_fq hc, mul_one]
  exact neg_one_ne hc

omit hc in
theorem sqrtFq_some {v s : K} (h : sqrtFq v = some s) : s * s = v := by
  simp only [sqrtFq] at h
  split_ifs at h with h1
  rw [← Option.some.inj h]
  exact h1

theorem sqrtFq_of_qr {v : K} (h : isQr v = true) : ∃ s, sqrtFq v = some s := by
  rw [isQr, decide_eq_true_iff] at h
  have h1 : v ^ ((p381 + 1) / 4) * v ^ ((p381 + 1) / 4) = v := by
    rw [← sq, ← pow_mul, Nat.mul_comm, p381_exps.1, pow_succ, h, one_mul]
  refine ⟨v ^ ((p381 + 1) / 4), ?_⟩
  unfold sqrtFq
  rw [if_pos h1]

theorem sqrtFq_sq (x : K) : ∃ s, sqrtFq (x * x) = some s := by
  by_cases hx : x = 0
  · subst hx
    refine ⟨0 ^ ((p381 + 1) / 4), ?_⟩
    unfold sqrtFq
    rw [mul_zero, if_pos]
    rw [zero_pow (by decide +kernel), mul_zero]
  · exact sqrtFq_of_qr hc (isQr_sq hc hx)

theorem no_root : ∀ r : K, r ^ 2 ≠ -1 + 0 * r := by
  intro r h
  have hr : r ≠ 0 := by
    rintro rfl
    simp at h
  have h1 : r * r = -(1 * 1) := by linear_combination h
  have := isQr_sq hc hr
  rw [h1, isQr_neg_sq hc one_ne_zero] at this
  cases this

/-- The last root exists and is not zero. -/
theorem deltaFq2_root (a : Fq2 K) (ha : a.im ≠ 0) (alpha : K) (h : alpha * alpha = a.re * a.re + a.im * a.im) :
    ∃ c0, sqrtFq (deltaFq2 a alpha) = some c0 ∧ c0 ≠ 0 := by
  have h2 := p381_two (fq_zero hc)
  obtain ⟨d, hd⟩ : ∃ d, d = (alpha + a.re) * 2⁻¹ := ⟨_, rfl⟩
  obtain ⟨i, hi⟩ : ∃ i, i = a.im * 2⁻¹ := ⟨_, rfl⟩
  have hi0 : i ≠ 0 := hi ▸ mul_ne_zero ha (inv_ne_zero h2)
  have hdi : d * (d - alpha) = -(i * i) := by
    rw [hd, hi]
    field_simp
    linear_combination -h
  have hd0 : d ≠ 0 := by
    rintro rfl
    rw [zero_mul] at hdi
    exact mul_ne_zero hi0 hi0 (by linear_combination hdi)
  have hd1 : d - alpha ≠ 0 := by
    intro h0
    rw [h0, mul_zero] at hdi
    exact mul_ne_zero hi0 hi0 (by linear_combination hdi)
  have key : isQr (deltaFq2 a alpha) = true ∧ deltaFq2 a alpha ≠ 0 := by
    simp only [deltaFq2]
    rw [← hd]
    split_ifs with hq
    · exact ⟨hq, hd0⟩
    · refine ⟨?_, hd1⟩
      have hn := isQr_neg_sq hc hi0
      rw [← hdi] at hn
      rw [isQr, decide_eq_true_iff] at hq ⊢
      rw [isQr, decide_eq_false_iff_not, mul_pow, (fq_pm hc hd0).resolve_left hq] at hn
      rcases fq_pm hc hd1 with h1 | h1
      · exact h1
      · rw [h1] at hn
        exact absurd (by ring) hn
  obtain ⟨c0, h0⟩ := sqrtFq_of_qr hc key.1
  refine ⟨c0, h0, ?_⟩
  rintro rfl
  have := sqrtFq_some h0
  exact key.2 (by rw [← this, mul_zero])

theorem sqrtFq2_root {v r : Fq2 K} (h : sqrtFq2 v = some r) : r * r = v := by
  unfold sqrtFq2 at h
  split_ifs at h with h1 h2
  · obtain ⟨c0, e, rfl⟩ := Option.map_eq_some_iff.mp h
    have := sqrtFq_some e
    ext <;> simp [this, h1]
  · obtain ⟨c0, e, rfl⟩ := Option.map_eq_some_iff.mp h
    have := sqrtFq_some e
    rw [div_neg, div_one] at this
    ext <;> simp [this, h1]
  · obtain ⟨alpha, -, h⟩ := Option.bind_eq_some_iff.mp h
    obtain ⟨c0, -, h⟩ := Option.bind_eq_some_iff.mp h
    simp only at h
    split_ifs at h with h3
    rw [← Option.some.inj h]
    exact h3

theorem sqrtFq2_sq (z : Fq2 K) : ∃ s, sqrtFq2 (z * z) = some s := by
  have h2 := p381_two (fq_zero hc)
  obtain ⟨x, y⟩ := z
  obtain ⟨a, ha⟩ : ∃ a : Fq2 K, a = ⟨x, y⟩ * ⟨x, y⟩ := ⟨_, rfl⟩
  have hre : a.re = x * x - y * y := by rw [ha]; simp; ring
  have him : a.im = 2 * (x * y) := by rw [ha]; simp; ring
  rw [← ha]
  unfold sqrtFq2
  split_ifs with h1 h3
  · obtain ⟨s, hs⟩ := sqrtFq_of_qr hc h3
    exact ⟨_, by rw [hs]; rfl⟩
  · rw [him] at h1
    have hx : x = 0 := by
      rcases mul_eq_zero.mp ((mul_eq_zero.mp h1).resolve_left h2) with h4 | h4
      · exact h4
      · by_contra hx
        apply h3
        rw [hre, h4, mul_zero, sub_zero]
        exact isQr_sq hc hx
    obtain ⟨s, hs⟩ := sqrtFq_sq hc y
    rw [hre, hx, div_neg, div_one, show -((0 : K) * 0 - y * y) = y * y by ring, hs]
    exact ⟨_, rfl⟩
  · have hxy : x ≠ 0 ∧ y ≠ 0 := by
      constructor <;> rintro rfl <;> apply h1 <;> rw [him] <;> ring
    obtain ⟨alpha, e1⟩ := sqrtFq_sq hc (x * x + y * y)
    have hn : a.re * a.re + a.im * a.im = (x * x + y * y) * (x * x + y * y) := by rw [hre, him]; ring
    have hal := sqrtFq_some e1
    have hdelta : deltaFq2 a alpha = x * x := by
      have : (alpha - (x * x + y * y)) * (alpha + (x * x + y * y)) = 0 := by linear_combination hal
      rcases mul_eq_zero.mp this with h | h
      · have hd : (alpha + a.re) * 2⁻¹ = x * x := by
          rw [hre, eq_of_sub_eq_zero h]; field_simp; ring
        simp only [deltaFq2, hd, isQr_sq hc hxy.1, if_true]
      · have h' : alpha = -(x * x + y * y) := eq_neg_of_add_eq_zero_left h
        have hd : (alpha + a.re) * 2⁻¹ = -(y * y) := by
          rw [hre, h']; field_simp; ring
        simp only [deltaFq2, hd, isQr_neg_sq hc hxy.2]
        rw [h']; simp
    obtain ⟨c0, e2⟩ := sqrtFq_sq hc x
    have hc0 := sqrtFq_some e2
    have hc00 : c0 ≠ 0 := by
      rintro rfl
      exact mul_ne_zero hxy.1 hxy.1 (by rw [← hc0, mul_zero])
    have hi : a.im * 2⁻¹ * c0⁻¹ * c0 = x * y := by
      rw [him]; field_simp
    have hcand : (⟨c0, a.im * 2⁻¹ * c0⁻¹⟩ : Fq2 K) * ⟨c0, a.im * 2⁻¹ * c0⁻¹⟩ = a := by
      have hsq : a.im * 2⁻¹ * c0⁻¹ * (a.im * 2⁻¹ * c0⁻¹) = y * y := by
        have : c0 * c0 * (a.im * 2⁻¹ * c0⁻¹ * (a.im * 2⁻¹ * c0⁻¹)) = c0 * c0 * (y * y) := by
          calc _ = (a.im * 2⁻¹ * c0⁻¹ * c0) * (a.im * 2⁻¹ * c0⁻¹ * c0) := by ring
            _ = (x * x) * (y * y) := by rw [hi]; ring
            _ = _ := by rw [hc0]
        exact mul_left_cancel₀ (mul_ne_zero hc00 hc00) this
      ext
      · simp only [QuadraticAlgebra.re_mul, hre]; linear_combination hc0 - hsq
      · simp only [QuadraticAlgebra.im_mul, him]; rw [him] at hi; linear_combination 2 * hi
    refine ⟨⟨c0, a.im * 2⁻¹ * c0⁻¹⟩, ?_⟩
    simp only [hn, e1, Option.bind_eq_bind, Option.bind_some, hdelta, e2, hcand, if_true]

end
end GS
