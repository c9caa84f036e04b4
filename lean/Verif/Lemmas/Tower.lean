import Verif.Lemmas.AteBls
import Verif.Spec.Tower

/-!
# The formulas of the tower compute in the tower
-/

open Polynomial

namespace GS.Tower

set_option linter.unusedSectionVars false

theorem some_of_map {α β : Type} {f : α → β} {o : Option α} {a : α} (h : o = some a) : o.map f = some (f a) := by rw [h]; rfl

section quad
variable {R S : Type} [Ops R] [Field S] {φ : R → S} [Fact (∀ r : S, r ^ 2 ≠ -1 + 0 * r)]

theorem norm2 {x y : S} (h : ¬(x = 0 ∧ y = 0)) : x ^ 2 + y ^ 2 ≠ 0 := by
  intro e
  by_cases hy : y = 0
  · rw [hy] at e
    exact h ⟨by simpa using e, hy⟩
  · refine (Fact.out : ∀ r : S, r ^ 2 ≠ -1 + 0 * r) (x / y) ?_
    rw [div_pow, div_eq_iff (pow_ne_zero 2 hy)]
    linear_combination e

theorem models2 (h : Models φ) : Models (val2 φ) where
  bij := by
    constructor
    · intro a b e
      have h1 := congrArg QuadraticAlgebra.re e
      have h2 := congrArg QuadraticAlgebra.im e
      exact Fp2.ext (h.bij.1 h1) (h.bij.1 h2)
    · intro z
      obtain ⟨a, ha⟩ := h.bij.2 z.re
      obtain ⟨b, hb⟩ := h.bij.2 z.im
      exact ⟨⟨a, b⟩, by ext <;> simp [val2, ha, hb]⟩
  zero := by ext; exacts [h.zero, h.zero]
  one := by ext; exacts [h.one, h.zero]
  add a b := by ext; exacts [h.add _ _, h.add _ _]
  sub a b := by ext; exacts [h.sub _ _, h.sub _ _]
  neg a := by ext; exacts [h.neg _, h.neg _]
  mul a b := by
    have e : a * b = (⟨sop2 a.c0 (-a.c1) b.c0 b.c1, sop2 a.c0 a.c1 b.c1 b.c0⟩ : Fp2 R) := rfl
    rw [e]
    ext
    · simp only [val2, h.sop2, h.neg, QuadraticAlgebra.re_mul]; ring
    · simp only [val2, h.sop2, QuadraticAlgebra.im_mul]; ring
  double a := by
    have e : double a = (⟨double a.c0, double a.c1⟩ : Fp2 R) := rfl
    rw [e, two_mul]
    ext
    · simp only [val2, h.double, QuadraticAlgebra.re_add]; ring
    · simp only [val2, h.double, QuadraticAlgebra.im_add]; ring
  square a := by
    have e : square a = (⟨(a.c0 - a.c1) * ((a.c0 - a.c1) + double a.c1), double a.c1 * a.c0⟩ : Fp2 R) := rfl
    rw [e, pow_two]
    ext
    · simp only [val2, h.mul, h.sub, h.add, h.double, QuadraticAlgebra.re_mul]; ring
    · simp only [val2, h.mul, h.double, QuadraticAlgebra.im_mul]; ring
  sop2 a b c d := by
    have e : sop2 a b c d = (⟨0 + sop2 a.c0 (-a.c1) c.c0 c.c1 + sop2 b.c0 (-b.c1) d.c0 d.c1, 0 + sop2 a.c0 a.c1 c.c1 c.c0 + sop2 b.c0 b.c1 d.c1 d.c0⟩ : Fp2 R) := rfl
    rw [e]
    ext
    · simp only [val2, h.sop2, h.add, h.zero, h.neg, QuadraticAlgebra.re_mul, QuadraticAlgebra.re_add]; ring
    · simp only [val2, h.sop2, h.add, h.zero, QuadraticAlgebra.im_mul, QuadraticAlgebra.im_add]; ring
  inverse_zero a ha := by
    have e : inverse a = (inverse (square a.c0 - -square a.c1)).map fun v => (⟨a.c0 * v, -(a.c1 * v)⟩ : Fp2 R) := rfl
    have h0 : φ a.c0 = 0 := congrArg QuadraticAlgebra.re ha
    have h1 : φ a.c1 = 0 := congrArg QuadraticAlgebra.im ha
    rw [e, h.inverse_zero _ (by simp only [h.sub, h.neg, h.square, h0, h1]; ring)]; rfl
  inverse a ha := by
    have e : inverse a = (inverse (square a.c0 - -square a.c1)).map fun v => (⟨a.c0 * v, -(a.c1 * v)⟩ : Fp2 R) := rfl
    have hN : φ a.c0 ^ 2 + φ a.c1 ^ 2 ≠ 0 := norm2 fun hh => ha (by ext; exacts [hh.1, hh.2])
    have eN : φ (square a.c0 - -square a.c1) = φ a.c0 ^ 2 + φ a.c1 ^ 2 := by simp only [h.sub, h.neg, h.square]; ring
    obtain ⟨v, hv, hv'⟩ := h.inverse _ (by rw [eN]; exact hN)
    refine ⟨_, by rw [e]; exact some_of_map hv, eq_inv_of_mul_eq_one_left ?_⟩
    rw [eN] at hv'
    have hi : φ v * (φ a.c0 ^ 2 + φ a.c1 ^ 2) = 1 := by rw [hv', inv_mul_cancel₀ hN]
    ext
    · simp only [val2, h.mul, h.neg, QuadraticAlgebra.re_mul, QuadraticAlgebra.re_one]; linear_combination hi
    · simp only [val2, h.mul, h.neg, QuadraticAlgebra.im_mul, QuadraticAlgebra.im_one]; ring

omit [Fact (∀ r : S, r ^ 2 ≠ -1 + 0 * r)] in
theorem val2_mulXi (h : Models φ) (a : Fp2 R) : val2 φ (mulXi a) = xiFq6 S * val2 φ a := by
  ext
  · simp only [val2, mulXi, h.sub, xiFq6, QuadraticAlgebra.re_mul]; ring
  · simp only [val2, mulXi, h.add, xiFq6, QuadraticAlgebra.im_mul]; ring

end quad

section
variable {R S : Type} [Ops R] [DecidableEq R] [Field S] {φ : R → S} [Fact (∀ r : S, r ^ 2 ≠ -1 + 0 * r)] [Fact (Irreducible (X ^ 3 - C (xiFq6 S)))]

theorem mkFq6_eq (a b c : Fq2 S) : mkFq6 (a, b, c) = algebraMap (Fq2 S) (Fq6 S) a + algebraMap (Fq2 S) (Fq6 S) b * xiFq12 S + algebraMap (Fq2 S) (Fq6 S) c * xiFq12 S ^ 2 := by
  simp only [mkFq6, map_add, map_mul, map_pow, AdjoinRoot.mk_X, AdjoinRoot.mk_C]
  rfl

theorem no_cube (b : Fq2 S) : b ^ 3 ≠ xiFq6 S := fun h => by
  have hirr := (Fact.out : Irreducible (X ^ 3 - C (xiFq6 S)))
  have := Polynomial.natDegree_eq_of_degree_eq_some (degree_eq_one_of_irreducible_of_root hirr (x := b) (by simp [h]))
  rw [natDegree_X_pow_sub_C] at this
  exact absurd this (by norm_num)

/-- The determinant of the inverse. -/
theorem norm6 {a b c : Fq2 S} (h : ¬(a = 0 ∧ b = 0 ∧ c = 0)) :
    a * (a ^ 2 - xiFq6 S * (b * c)) + xiFq6 S * (c * (xiFq6 S * c ^ 2 - a * b) + b * (b ^ 2 - a * c)) ≠ 0 := by
  intro e
  have hprod : (mkFq6 (a, b, c) : Fq6 S) * mkFq6 (a ^ 2 - xiFq6 S * (b * c), xiFq6 S * c ^ 2 - a * b, b ^ 2 - a * c) = 0 := by
    have := congrArg (algebraMap (Fq2 S) (Fq6 S)) e
    have hv := v_cube (K := S)
    simp only [mkFq6_eq, map_add, map_sub, map_mul, map_pow, map_zero] at this ⊢
    set A := algebraMap (Fq2 S) (Fq6 S) a
    set B := algebraMap (Fq2 S) (Fq6 S) b
    set D := algebraMap (Fq2 S) (Fq6 S) c
    set ξ := algebraMap (Fq2 S) (Fq6 S) (xiFq6 S)
    set v := xiFq12 S
    linear_combination this + (B * (B ^ 2 - A * D) + D * (ξ * D ^ 2 - A * B) + D * (B ^ 2 - A * D) * v) * hv
  have inj0 : ∀ x y z : Fq2 S, (mkFq6 (x, y, z) : Fq6 S) = 0 → x = 0 ∧ y = 0 ∧ z = 0 := by
    intro x y z hxyz
    have h0 : (mkFq6 ((0, 0, 0) : Fq2 S × Fq2 S × Fq2 S) : Fq6 S) = 0 := by simp [mkFq6_eq]
    have := mkFq6_bijective.1 (hxyz.trans h0.symm)
    simpa [Prod.ext_iff] using this
  rcases mul_eq_zero.1 hprod with h1 | h1
  · exact h (inj0 _ _ _ h1)
  · obtain ⟨s0, s1, s2⟩ := inj0 _ _ _ h1
    by_cases hc : c = 0
    · subst hc
      have hb : b = 0 := by simpa using s2
      subst hb
      exact h ⟨by simpa using s0, rfl, rfl⟩
    · apply no_cube (b / c)
      rw [div_pow, div_eq_iff (pow_ne_zero 3 hc)]
      linear_combination b * s2 - c * s1

theorem models6 (h : Models φ) : Models (val6 φ) := by
  have h2 := models2 h
  have hx := val2_mulXi h
  have hv := v_cube (K := S)
  have hinv0 : ∀ a : Fp6 R, val6 φ a = 0 ↔ a = ⟨0, 0, 0⟩ := by
    intro a
    constructor
    · intro e
      have h0 : (mkFq6 ((0, 0, 0) : Fq2 S × Fq2 S × Fq2 S) : Fq6 S) = 0 := by simp [mkFq6_eq]
      have := mkFq6_bijective.1 (e.trans h0.symm)
      simp only [Prod.mk.injEq] at this
      exact Fp6.ext (h2.bij.1 (this.1.trans h2.zero.symm)) (h2.bij.1 (this.2.1.trans h2.zero.symm)) (h2.bij.1 (this.2.2.trans h2.zero.symm))
    · rintro rfl; simp [val6, h2.zero, mkFq6_eq]
  have hmul : ∀ a b : Fp6 R, val6 φ (mul6 a b) = val6 φ a * val6 φ b := by
    intro a b
    simp only [val6, mul6, h2.add, h2.sub, h2.mul, hx, mkFq6_eq, map_add, map_sub, map_mul]
    generalize algebraMap (Fq2 S) (Fq6 S) (val2 φ a.c0) = a0 at *
    generalize algebraMap (Fq2 S) (Fq6 S) (val2 φ a.c1) = a1 at *
    generalize algebraMap (Fq2 S) (Fq6 S) (val2 φ a.c2) = a2 at *
    generalize algebraMap (Fq2 S) (Fq6 S) (val2 φ b.c0) = b0 at *
    generalize algebraMap (Fq2 S) (Fq6 S) (val2 φ b.c1) = b1 at *
    generalize algebraMap (Fq2 S) (Fq6 S) (val2 φ b.c2) = b2 at *
    linear_combination -(a1 * b2 + a2 * b1 + a2 * b2 * xiFq12 S) * hv
  have hadd : ∀ a b : Fp6 R, val6 φ (a + b) = val6 φ a + val6 φ b := by
    intro a b
    have e : a + b = (⟨a.c0 + b.c0, a.c1 + b.c1, a.c2 + b.c2⟩ : Fp6 R) := rfl
    rw [e]
    simp only [val6, h2.add, mkFq6_eq, map_add]; ring
  constructor
  · constructor
    · intro a b e
      have := mkFq6_bijective.1 e
      simp only [Prod.mk.injEq] at this
      exact Fp6.ext (h2.bij.1 this.1) (h2.bij.1 this.2.1) (h2.bij.1 this.2.2)
    · intro z
      obtain ⟨⟨x, y, w⟩, e⟩ := mkFq6_bijective.2 z
      obtain ⟨a, rfl⟩ := h2.bij.2 x
      obtain ⟨b, rfl⟩ := h2.bij.2 y
      obtain ⟨c, rfl⟩ := h2.bij.2 w
      exact ⟨⟨a, b, c⟩, e⟩
  · exact (hinv0 _).2 rfl
  · show val6 φ (⟨1, 0, 0⟩ : Fp6 R) = 1
    simp [val6, h2.zero, h2.one, mkFq6_eq]
  · exact hadd
  · intro a b
    have e : a - b = (⟨a.c0 - b.c0, a.c1 - b.c1, a.c2 - b.c2⟩ : Fp6 R) := rfl
    rw [e]
    simp only [val6, h2.sub, mkFq6_eq, map_sub]; ring
  · intro a
    have e : -a = (⟨-a.c0, -a.c1, -a.c2⟩ : Fp6 R) := rfl
    rw [e]
    simp only [val6, h2.neg, mkFq6_eq, map_neg]; ring
  · exact hmul
  · intro a
    have e : double a = (⟨double a.c0, double a.c1, double a.c2⟩ : Fp6 R) := rfl
    rw [e]
    simp only [val6, h2.double, mkFq6_eq, map_mul, map_ofNat]; ring
  · intro a
    show val6 φ (square6 a) = _
    simp only [val6, square6, h2.add, h2.sub, h2.mul, h2.double, h2.square, hx, mkFq6_eq, map_add, map_sub, map_mul, map_pow, map_ofNat]
    generalize algebraMap (Fq2 S) (Fq6 S) (val2 φ a.c0) = a0 at *
    generalize algebraMap (Fq2 S) (Fq6 S) (val2 φ a.c1) = a1 at *
    generalize algebraMap (Fq2 S) (Fq6 S) (val2 φ a.c2) = a2 at *
    linear_combination -(2 * a1 * a2 + a2 * a2 * xiFq12 S) * hv
  · intro a b c d
    have e : sop2 a b c d = (0 : Fp6 R) + mul6 a c + mul6 b d := rfl
    rw [e, hadd, hadd, hmul, hmul, show val6 φ (0 : Fp6 R) = 0 from (hinv0 _).2 rfl, zero_add]
  · intro a ha
    show inverse6 a = none
    rw [inverse6, if_pos ((hinv0 a).1 ha)]
  · intro a ha
    have hne : ¬(val2 φ a.c0 = 0 ∧ val2 φ a.c1 = 0 ∧ val2 φ a.c2 = 0) := fun hh => ha (by simp [val6, hh.1, hh.2.1, hh.2.2, mkFq6_eq])
    have hN := norm6 hne
    have eN : val2 φ (a.c0 * (square a.c0 - mulXi (a.c1 * a.c2)) + mulXi (a.c2 * (mulXi (square a.c2) - a.c0 * a.c1) + a.c1 * (square a.c1 - a.c0 * a.c2))) =
        val2 φ a.c0 * (val2 φ a.c0 ^ 2 - xiFq6 S * (val2 φ a.c1 * val2 φ a.c2)) +
          xiFq6 S * (val2 φ a.c2 * (xiFq6 S * val2 φ a.c2 ^ 2 - val2 φ a.c0 * val2 φ a.c1) + val2 φ a.c1 * (val2 φ a.c1 ^ 2 - val2 φ a.c0 * val2 φ a.c2)) := by
      simp only [h2.add, h2.sub, h2.mul, h2.square, hx]
    obtain ⟨t, ht, ht'⟩ := h2.inverse _ (by rw [eN]; exact hN)
    rw [eN] at ht'
    refine ⟨⟨t * (square a.c0 - mulXi (a.c1 * a.c2)), t * (mulXi (square a.c2) - a.c0 * a.c1), t * (square a.c1 - a.c0 * a.c2)⟩, ?_, eq_inv_of_mul_eq_one_left ?_⟩
    · show inverse6 a = _
      rw [inverse6, if_neg (fun hh => ha ((hinv0 a).2 hh))]
      exact some_of_map ht
    · have hi := congrArg (algebraMap (Fq2 S) (Fq6 S)) (show val2 φ t * _ = 1 by rw [ht']; exact inv_mul_cancel₀ hN)
      simp only [val6, h2.sub, h2.mul, h2.square, hx, mkFq6_eq, map_add, map_sub, map_mul, map_pow, map_one] at hi ⊢
      generalize algebraMap (Fq2 S) (Fq6 S) (val2 φ a.c0) = a0 at *
      generalize algebraMap (Fq2 S) (Fq6 S) (val2 φ a.c1) = a1 at *
      generalize algebraMap (Fq2 S) (Fq6 S) (val2 φ a.c2) = a2 at *
      generalize algebraMap (Fq2 S) (Fq6 S) (val2 φ t) = τ at *
      generalize algebraMap (Fq2 S) (Fq6 S) (xiFq6 S) = ξ at *
      linear_combination hi + τ * (a1 * (a1 ^ 2 - a0 * a2) + a2 * (ξ * a2 ^ 2 - a0 * a1) + a2 * (a1 ^ 2 - a0 * a2) * xiFq12 S) * hv

theorem val6_mulV (h : Models φ) (a : Fp6 R) : val6 φ (mulV a) = xiFq12 S * val6 φ a := by
  have hv := v_cube (K := S)
  simp only [val6, mulV, val2_mulXi h, mkFq6_eq, map_mul]
  linear_combination -algebraMap (Fq2 S) (Fq6 S) (val2 φ a.c2) * hv

variable [Fact (∀ b : Fq6 S, b ^ 2 ≠ xiFq12 S + 0 * b)]

theorem norm12 {x y : Fq6 S} (h : ¬(x = 0 ∧ y = 0)) : x ^ 2 - xiFq12 S * y ^ 2 ≠ 0 := by
  intro e
  by_cases hy : y = 0
  · rw [hy] at e
    exact h ⟨by simpa using e, hy⟩
  · refine (Fact.out : ∀ b : Fq6 S, b ^ 2 ≠ xiFq12 S + 0 * b) (x / y) ?_
    rw [div_pow, div_eq_iff (pow_ne_zero 2 hy)]
    linear_combination e

theorem models12 (h : Models φ) : Models (val12 φ) := by
  have h6 := models6 h
  have hx := val6_mulV h
  have hmul : ∀ a b : Fp12 R, val12 φ (mul12 a b) = val12 φ a * val12 φ b := by
    intro a b
    ext
    · simp only [val12, mul12, h6.mul, h6.add, hx, QuadraticAlgebra.re_mul]; ring
    · simp only [val12, mul12, h6.mul, h6.add, h6.sub, QuadraticAlgebra.im_mul]; ring
  have hadd : ∀ a b : Fp12 R, val12 φ (a + b) = val12 φ a + val12 φ b := fun a b => by ext; exacts [h6.add _ _, h6.add _ _]
  have hzero : val12 φ (0 : Fp12 R) = 0 := by ext; exacts [h6.zero, h6.zero]
  have hinj : Function.Injective (val12 φ) := by
    intro a b e
    have h1 := congrArg QuadraticAlgebra.re e
    have h2 := congrArg QuadraticAlgebra.im e
    exact Fp12.ext (h6.bij.1 h1) (h6.bij.1 h2)
  constructor
  · refine ⟨hinj, fun z => ?_⟩
    obtain ⟨a, ha⟩ := h6.bij.2 z.re
    obtain ⟨b, hb⟩ := h6.bij.2 z.im
    exact ⟨⟨a, b⟩, by ext; exacts [ha, hb]⟩
  · exact hzero
  · ext; exacts [h6.one, h6.zero]
  · exact hadd
  · intro a b; ext; exacts [h6.sub _ _, h6.sub _ _]
  · intro a; ext; exacts [h6.neg _, h6.neg _]
  · exact hmul
  · intro a
    rw [two_mul]
    ext
    · exact (h6.double _).trans (two_mul _)
    · exact (h6.double _).trans (two_mul _)
  · intro a
    show val12 φ (square12 a) = _
    rw [pow_two]
    ext
    · simp only [val12, square12, h6.mul, h6.add, h6.sub, hx, QuadraticAlgebra.re_mul]; ring
    · simp only [val12, square12, h6.mul, h6.double, QuadraticAlgebra.im_mul]; ring
  · intro a b c d
    have e : sop2 a b c d = (0 : Fp12 R) + mul12 a c + mul12 b d := rfl
    rw [e, hadd, hadd, hmul, hmul, hzero, zero_add]
  · intro a ha
    show inverse12 a = none
    rw [inverse12, if_pos (show a = ⟨0, 0⟩ from hinj (ha.trans hzero.symm))]
  · intro a ha
    have hN : val6 φ a.c0 ^ 2 - xiFq12 S * val6 φ a.c1 ^ 2 ≠ 0 := norm12 fun hh => ha (by ext; exacts [hh.1, hh.2])
    have eN : val6 φ (square a.c0 - mulV (square a.c1)) = val6 φ a.c0 ^ 2 - xiFq12 S * val6 φ a.c1 ^ 2 := by simp only [h6.sub, hx, h6.square]
    obtain ⟨v, hv, hv'⟩ := h6.inverse _ (by rw [eN]; exact hN)
    refine ⟨⟨a.c0 * v, -(a.c1 * v)⟩, ?_, eq_inv_of_mul_eq_one_left ?_⟩
    · show inverse12 a = _
      rw [inverse12, if_neg (fun hh => ha (by rw [hh]; exact hzero))]
      exact some_of_map hv
    · rw [eN] at hv'
      have hi : val6 φ v * (val6 φ a.c0 ^ 2 - xiFq12 S * val6 φ a.c1 ^ 2) = 1 := by rw [hv', inv_mul_cancel₀ hN]
      ext
      · simp only [val12, h6.mul, h6.neg, QuadraticAlgebra.re_mul, QuadraticAlgebra.re_one]; linear_combination hi
      · simp only [val12, h6.mul, h6.neg, QuadraticAlgebra.im_mul, QuadraticAlgebra.im_one]; ring

theorem val6_mulBy01 (h : Models φ) (a : Fp6 R) (c0 c1 : Fp2 R) : val6 φ (mulBy01 a c0 c1) = val6 φ a * mkFq6 (val2 φ c0, val2 φ c1, 0) := by
  have h2 := models2 h
  have hv := v_cube (K := S)
  simp only [val6, mulBy01, h2.add, h2.sub, h2.mul, val2_mulXi h, mkFq6_eq, map_add, map_sub, map_mul, map_zero]
  generalize algebraMap (Fq2 S) (Fq6 S) (val2 φ a.c0) = a0 at *
  generalize algebraMap (Fq2 S) (Fq6 S) (val2 φ a.c1) = a1 at *
  generalize algebraMap (Fq2 S) (Fq6 S) (val2 φ a.c2) = a2 at *
  generalize algebraMap (Fq2 S) (Fq6 S) (val2 φ c0) = b0 at *
  generalize algebraMap (Fq2 S) (Fq6 S) (val2 φ c1) = b1 at *
  linear_combination -(a2 * b1) * hv

theorem val6_mulBy1 (h : Models φ) (a : Fp6 R) (c1 : Fp2 R) : val6 φ (mulBy1 a c1) = val6 φ a * mkFq6 (0, val2 φ c1, 0) := by
  have h2 := models2 h
  have hv := v_cube (K := S)
  simp only [val6, mulBy1, h2.add, h2.sub, h2.mul, val2_mulXi h, mkFq6_eq, map_add, map_sub, map_mul, map_zero]
  generalize algebraMap (Fq2 S) (Fq6 S) (val2 φ a.c0) = a0 at *
  generalize algebraMap (Fq2 S) (Fq6 S) (val2 φ a.c1) = a1 at *
  generalize algebraMap (Fq2 S) (Fq6 S) (val2 φ a.c2) = a2 at *
  generalize algebraMap (Fq2 S) (Fq6 S) (val2 φ c1) = b1 at *
  linear_combination -(a2 * b1) * hv

theorem val12_mulBy014 (h : Models φ) (f : Fp12 R) (c0 c1 c4 : Fp2 R) :
    val12 φ (mulBy014 f c0 c1 c4) = GS.mulBy014 (val12 φ f) (val2 φ c0) (val2 φ c1) (val2 φ c4) := by
  have h2 := models2 h
  have h6 := models6 h
  ext
  · simp only [val12, mulBy014, GS.mulBy014, h6.add, val6_mulBy01 h, val6_mulBy1 h, val6_mulV h]; ring
  · simp only [val12, mulBy014, GS.mulBy014, h6.add, h6.sub, h2.add, val6_mulBy01 h, val6_mulBy1 h]

theorem val12_conj (h : Models φ) (f : Fp12 R) : val12 φ (conj f) = star (val12 φ f) := by
  have h6 := models6 h
  ext
  · simp [val12, conj]
  · simp [val12, conj, h6.neg]

end

end GS.Tower
