import Mathlib.AlgebraicGeometry.EllipticCurve.Affine.Point

/-!
# Lines through points of a Weierstrass curve

The line through two points is a function on the curve. Functions with the same zeros are equal up to a constant, which for products of lines and verticals is
a root of unity.
-/

open Polynomial WeierstrassCurve.Affine
open scoped Polynomial.Bivariate
open WeierstrassCurve.Affine.CoordinateRing (XClass YClass XYIdeal XIdeal YIdeal)

namespace GS
variable {F : Type} [Field F] {W : WeierstrassCurve.Affine F}

/-- The functions that are zero at a point. -/
noncomputable def ptIdeal : W.Point → Ideal W.CoordinateRing
  | .zero => ⊤
  | .some x y _ => XYIdeal W x (C y)

/-- The vertical through a point. -/
noncomputable def vertC : W.Point → W.CoordinateRing
  | .zero => 1
  | .some x _ _ => XClass W x

theorem vertC_ne (A : W.Point) : vertC A ≠ 0 := by
  rcases A with _ | ⟨x, y, h⟩
  · exact one_ne_zero
  · exact CoordinateRing.XClass_ne_zero x

variable [DecidableEq F]

/-- The line through two points. -/
noncomputable def lineC : W.Point → W.Point → W.CoordinateRing
  | .zero, B => vertC B
  | .some x _ _, .zero => XClass W x
  | .some x₁ y₁ _, .some x₂ y₂ _ =>
    if x₁ = x₂ ∧ y₁ = W.negY x₂ y₂ then XClass W x₁ else YClass W (linePolynomial x₁ y₁ (W.slope x₁ x₂ y₁ y₂))

theorem neg_ideal (A : W.Point) : ptIdeal (-A) * ptIdeal A = Ideal.span {vertC A} := by
  rcases A with _ | ⟨x, y, h⟩
  · show ptIdeal (-0 : W.Point) * ⊤ = Ideal.span {1}
    rw [Point.neg_zero]
    show ⊤ * ⊤ = _
    rw [Ideal.top_mul, Ideal.span_singleton_one]
  · exact CoordinateRing.XYIdeal_neg_mul h

theorem line_ideal (A B : W.Point) : Ideal.span {vertC (A + B)} * (ptIdeal A * ptIdeal B) = Ideal.span {lineC A B} * ptIdeal (A + B) := by
  rcases A with _ | ⟨x₁, y₁, h₁⟩
  · rw [← Point.zero_def, zero_add]
    show _ * (⊤ * ptIdeal B) = Ideal.span {vertC B} * ptIdeal B
    rw [Ideal.top_mul]
  · rcases B with _ | ⟨x₂, y₂, h₂⟩
    · rw [← Point.zero_def, add_zero]
      show _ * (ptIdeal _ * ⊤) = Ideal.span {vertC (.some x₁ y₁ h₁)} * ptIdeal (.some x₁ y₁ h₁)
      rw [Ideal.mul_top]
    · by_cases hxy : x₁ = x₂ ∧ y₁ = W.negY x₂ y₂
      · have e : (.some x₁ y₁ h₁ : W.Point) = -.some x₂ y₂ h₂ := by
          rw [Point.neg_some]
          obtain ⟨rfl, rfl⟩ := hxy
          rfl
        have hl : lineC (.some x₁ y₁ h₁ : W.Point) (.some x₂ y₂ h₂) = vertC (.some x₂ y₂ h₂) := by
          show (if _ then _ else _) = _
          rw [if_pos hxy, hxy.1]
          rfl
        rw [hl, e, neg_add_cancel, neg_ideal]
        show Ideal.span {1} * _ = _ * ⊤
        rw [Ideal.span_singleton_one, Ideal.top_mul, Ideal.mul_top]
      · have hl : lineC (.some x₁ y₁ h₁ : W.Point) (.some x₂ y₂ h₂) = YClass W (linePolynomial x₁ y₁ (W.slope x₁ x₂ y₁ y₂)) := if_neg hxy
        rw [hl, Point.add_some hxy]
        exact CoordinateRing.XYIdeal_mul_XYIdeal h₁.left h₂.left hxy

theorem ideal_cancel (A : W.Point) {a b : W.CoordinateRing} (h : Ideal.span {a} * ptIdeal A = Ideal.span {b} * ptIdeal A) : Associated a b := by
  have h' : Ideal.span {a * vertC A} = Ideal.span {b * vertC A} := by
    rw [← Ideal.span_singleton_mul_span_singleton, ← Ideal.span_singleton_mul_span_singleton, ← neg_ideal, mul_left_comm, h, mul_left_comm]
  obtain ⟨u, hu⟩ := Ideal.span_singleton_eq_span_singleton.mp h'
  refine ⟨u, mul_right_cancel₀ (vertC_ne A) ?_⟩
  rw [← hu]; ring

/-- The two ways to add three points. -/
theorem line_assoc (A B D : W.Point) : Associated (lineC A B * lineC (A + B) D * vertC (B + D)) (lineC B D * lineC A (B + D) * vertC (A + B)) := by
  refine ideal_cancel (A + B + D) ?_
  have e1 := line_ideal A B
  have e2 := line_ideal (A + B) D
  have e3 := line_ideal B D
  have e4 := line_ideal A (B + D)
  rw [← add_assoc] at e4
  simp only [← Ideal.span_singleton_mul_span_singleton]
  generalize Ideal.span {lineC A B} = l1 at *
  generalize Ideal.span {lineC (A + B) D} = l2 at *
  generalize Ideal.span {lineC B D} = l3 at *
  generalize Ideal.span {lineC A (B + D)} = l4 at *
  generalize Ideal.span {vertC (A + B)} = v1 at *
  generalize Ideal.span {vertC (B + D)} = v2 at *
  generalize Ideal.span {vertC (A + B + D)} = v3 at *
  generalize ptIdeal (A + B + D) = I at *
  calc l1 * l2 * v2 * I = v2 * l1 * (l2 * I) := by ring
    _ = v2 * v3 * ptIdeal D * (l1 * ptIdeal (A + B)) := by rw [← e2]; ring
    _ = v1 * v3 * ptIdeal A * (v2 * (ptIdeal B * ptIdeal D)) := by rw [← e1]; ring
    _ = v1 * l3 * (v3 * (ptIdeal A * ptIdeal (B + D))) := by rw [e3]; ring
    _ = l3 * l4 * v1 * I := by rw [e4]; ring

/-! ## The constant -/

omit [DecidableEq F] in
theorem unit_const {u : W.CoordinateRing} (hu : IsUnit u) : ∃ c : F, u = algebraMap F _ c := by
  obtain ⟨p, q, rfl⟩ := CoordinateRing.exists_smul_basis_eq u
  have hn := hu.map (Algebra.norm F[X])
  have hd := CoordinateRing.degree_norm_smul_basis (W' := W) p q
  rw [degree_eq_zero_of_isUnit hn] at hd
  have hq : q = 0 := by
    by_contra hq
    have h1 : (3 : WithBot ℕ) ≤ 2 • q.degree + 3 := by
      rw [degree_eq_natDegree hq, two_nsmul]
      exact_mod_cast (by omega : 3 ≤ q.natDegree + q.natDegree + 3)
    have h2 := le_max_right (2 • p.degree) (2 • q.degree + 3)
    rw [← hd] at h2
    exact absurd (h1.trans h2) (by decide)
  have hp : p.natDegree = 0 := by
    by_contra hp
    have hp0 : p ≠ 0 := by rintro rfl; simp at hp
    have h1 := le_max_left (2 • p.degree) (2 • q.degree + 3)
    rw [← hd, degree_eq_natDegree hp0, two_nsmul] at h1
    have : p.natDegree + p.natDegree ≤ 0 := by exact_mod_cast h1
    omega
  refine ⟨p.coeff 0, ?_⟩
  rw [hq, zero_smul, add_zero, Algebra.algebraMap_eq_smul_one, eq_C_of_natDegree_eq_zero hp]
  simp only [coeff_C_zero]
  rw [CoordinateRing.smul, mul_one, Algebra.smul_def, mul_one]
  rfl

/-- The leading coefficient of the norm. -/
noncomputable def lcN (a : W.CoordinateRing) : F := (Algebra.norm F[X] a).leadingCoeff

omit [DecidableEq F] in
theorem lcN_mul (a b : W.CoordinateRing) : lcN (a * b) = lcN a * lcN b := by rw [lcN, map_mul, leadingCoeff_mul]; rfl

omit [DecidableEq F] in
theorem lcN_const (c : F) : lcN (algebraMap F W.CoordinateRing c) = c ^ 2 := by
  have h : algebraMap F W.CoordinateRing c = (C c) • (1 : W.CoordinateRing) + (0 : F[X]) • CoordinateRing.mk W Y := by
    rw [zero_smul, add_zero, CoordinateRing.smul, mul_one]; rfl
  rw [lcN, h, CoordinateRing.norm_smul_basis]
  simp

omit [DecidableEq F] in
theorem lcN_X (x : F) : lcN (XClass W x) = 1 := by
  have h : XClass W x = (X - C x) • (1 : W.CoordinateRing) + (0 : F[X]) • CoordinateRing.mk W Y := by
    rw [zero_smul, add_zero, CoordinateRing.smul, mul_one]; rfl
  rw [lcN, h, CoordinateRing.norm_smul_basis]
  simp

omit [DecidableEq F] in
theorem lcN_vert (A : W.Point) : lcN (vertC A) = 1 := by
  rcases A with _ | ⟨x, y, h⟩
  · show lcN 1 = 1
    rw [lcN, map_one, leadingCoeff_one]
  · exact lcN_X x

omit [DecidableEq F] in
theorem lcN_Y (x y l : F) : lcN (YClass W (linePolynomial x y l)) = -1 := by
  have h : YClass W (linePolynomial x y l) = (-linePolynomial x y l) • (1 : W.CoordinateRing) + (1 : F[X]) • CoordinateRing.mk W Y := by
    rw [one_smul, CoordinateRing.smul, mul_one, YClass, map_sub, C_neg, map_neg, sub_eq_neg_add]
  have h' : Algebra.norm F[X] (YClass W (linePolynomial x y l)) = W.addPolynomial x y l := by
    rw [h, CoordinateRing.norm_smul_basis, addPolynomial, WeierstrassCurve.Affine.polynomial]
    simp only [eval_sub, eval_add, eval_mul, eval_pow, eval_X, eval_C]
    ring
  rw [lcN, h', addPolynomial_eq, leadingCoeff_neg, Cubic.leadingCoeff_of_a_ne_zero one_ne_zero]

theorem lcN_line (A B : W.Point) : lcN (lineC A B) ^ 2 = 1 := by
  have e1 (x : F) : lcN (XClass W x) ^ 2 = 1 := by rw [lcN_X, one_pow]
  have e2 (x y l : F) : lcN (YClass W (linePolynomial x y l)) ^ 2 = 1 := by rw [lcN_Y, neg_one_sq]
  unfold lineC
  split
  · rw [lcN_vert, one_pow]
  · exact e1 _
  · split
    · exact e1 _
    · exact e2 _ _ _

/-! ## Values -/

section
variable {x y : F} (h : W.Equation x y)

/-- The value of a function at a point. -/
noncomputable def valueAt : W.CoordinateRing →+* F := AdjoinRoot.evalEval h

omit [DecidableEq F] in
theorem valueAt_mk (g : F[X][Y]) : valueAt h (CoordinateRing.mk W g) = g.evalEval x y := AdjoinRoot.evalEval_mk h g

omit [DecidableEq F] in
theorem valueAt_X (a : F) : valueAt h (XClass W a) = x - a := by
  rw [XClass, valueAt_mk]
  simp [evalEval_C]

omit [DecidableEq F] in
theorem valueAt_Y (p : F[X]) : valueAt h (YClass W p) = y - p.eval x := by
  rw [YClass, valueAt_mk]
  simp [evalEval_C]

omit [DecidableEq F] in
theorem valueAt_const (c : F) : valueAt h (algebraMap F W.CoordinateRing c) = c := by
  have : algebraMap F W.CoordinateRing c = CoordinateRing.mk W (C (C c)) := rfl
  rw [this, valueAt_mk]
  simp

end

/-- The value of the vertical through a point. -/
def vertAt (A : W.Point) (x : F) : F :=
  match A with
  | .zero => 1
  | .some a _ _ => x - a

/-- The value of the line through two points. -/
def lineAt (A B : W.Point) (x y : F) : F :=
  match A, B with
  | .zero, B => vertAt B x
  | .some x₁ _ _, .zero => x - x₁
  | .some x₁ y₁ _, .some x₂ y₂ _ => if x₁ = x₂ ∧ y₁ = W.negY x₂ y₂ then x - x₁ else y - (y₁ + W.slope x₁ x₂ y₁ y₂ * (x - x₁))

omit [DecidableEq F] in
theorem valueAt_vert {x y : F} (h : W.Equation x y) (A : W.Point) : valueAt h (vertC A) = vertAt A x := by
  rcases A with _ | ⟨a, b, h'⟩
  · exact map_one _
  · exact valueAt_X h a

theorem valueAt_line {x y : F} (h : W.Equation x y) (A B : W.Point) : valueAt h (lineC A B) = lineAt A B x y := by
  rcases A with _ | ⟨x₁, y₁, h₁⟩
  · exact valueAt_vert h B
  · rcases B with _ | ⟨x₂, y₂, h₂⟩
    · exact valueAt_X h x₁
    · show valueAt h (if _ then _ else _) = if _ then _ else _
      split
      · exact valueAt_X h x₁
      · rw [valueAt_Y, linePolynomial]
        simp
        ring

/-- The two ways to add three points give the same value, up to a root of unity. -/
theorem lineAt_assoc {x y : F} (h : W.Equation x y) (A B D : W.Point) : ∃ c : F, c ^ 4 = 1 ∧
    lineAt A B x y * lineAt (A + B) D x y * vertAt (B + D) x * c = lineAt B D x y * lineAt A (B + D) x y * vertAt (A + B) x := by
  obtain ⟨u, hu⟩ := line_assoc A B D
  obtain ⟨c, hc⟩ := unit_const u.isUnit
  refine ⟨c, ?_, ?_⟩
  · have h1 := congrArg (fun a => lcN a ^ 2) hu
    simp only [lcN_mul, hc, lcN_const, mul_pow, lcN_line, lcN_vert, mul_one, one_mul] at h1
    rw [← h1]; ring
  · have h1 := congrArg (valueAt h) hu
    rw [hc] at h1
    simp only [map_mul, valueAt_const, valueAt_line, valueAt_vert] at h1
    exact h1

theorem lineAt_comm (A B : W.Point) {x y : F} : lineAt A B x y = lineAt B A x y := by
  rcases A with _ | ⟨x₁, y₁, h₁⟩
  · rcases B with _ | ⟨x₂, y₂, h₂⟩ <;> rfl
  · rcases B with _ | ⟨x₂, y₂, h₂⟩
    · rfl
    · show (if _ then _ else _) = if _ then _ else _
      by_cases hx : x₁ = x₂
      · subst hx
        by_cases hy : y₁ = W.negY x₁ y₂
        · rw [if_pos ⟨rfl, hy⟩, if_pos ⟨rfl, by rw [hy, negY_negY]⟩]
        · rw [if_neg fun h => hy h.2, if_neg fun h => hy (by rw [h.2, negY_negY])]
          have := Y_eq_of_Y_ne h₁.left h₂.left rfl hy
          subst this
          rfl
      · rw [if_neg fun h => hx h.1, if_neg fun h => hx h.1.symm, slope_of_X_ne hx, slope_of_X_ne (Ne.symm hx)]
        have := sub_ne_zero.mpr hx
        have := sub_ne_zero.mpr (Ne.symm hx)
        rw [show (y₂ - y₁) / (x₂ - x₁) = (y₁ - y₂) / (x₁ - x₂) by rw [← neg_sub y₁, ← neg_sub x₁, neg_div_neg_eq]]
        field_simp
        ring

end GS
