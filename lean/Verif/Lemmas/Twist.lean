import Verif.Model.Bls381
import Mathlib.Tactic.LinearCombination

/-!
# Maps between the curves `y² = x³ + b`

`(x, y) ↦ (c x, d y)` with `c³ = d²`, also after a homomorphism of fields, respects addition.
-/

set_option linter.unusedSectionVars false

namespace GS
open WeierstrassCurve.Affine

section
variable {K L : Type} [Field K] [Field L] [DecidableEq K] [DecidableEq L]

theorem cubic_nonsingular (b x y : K) : (cubic b).Nonsingular x y ↔ y ^ 2 = x ^ 3 + b ∧ (3 * x ^ 2 ≠ 0 ∨ 2 * y ≠ 0) := by
  rw [WeierstrassCurve.Affine.nonsingular_iff, WeierstrassCurve.Affine.equation_iff]
  simp only [cubic, zero_mul, add_zero, mul_zero, sub_zero]
  refine and_congr Iff.rfl (or_congr ?_ ?_)
  · exact ⟨fun h h' => h h'.symm, fun h h' => h h'.symm⟩
  · rw [not_iff_not]
    constructor <;> intro h <;> linear_combination h

theorem cubic_negY (b x y : K) : (cubic b).negY x y = -y := by simp [WeierstrassCurve.Affine.negY, cubic]

variable (f : K →+* L) (u : L) (hu : u ≠ 0) (b : K)

include hu in
theorem twist_nonsingular {b' : L} (hb : b' = u ^ 6 * f b) {x y : K} (h : (cubic b).Nonsingular x y) : (cubic b').Nonsingular (u ^ 2 * f x) (u ^ 3 * f y) := by
  rw [cubic_nonsingular] at h ⊢
  obtain ⟨h1, h2⟩ := h
  refine ⟨?_, ?_⟩
  · have := congrArg f h1
    simp only [map_pow, map_add] at this
    rw [hb]
    linear_combination u ^ 6 * this
  · refine h2.imp (fun h => ?_) (fun h => ?_)
    · have := (map_ne_zero f).mpr h
      simp only [map_mul, map_pow, map_ofNat] at this
      rw [show 3 * (u ^ 2 * f x) ^ 2 = u ^ 4 * (3 * f x ^ 2) by ring]
      exact mul_ne_zero (pow_ne_zero _ hu) this
    · have := (map_ne_zero f).mpr h
      simp only [map_mul, map_ofNat] at this
      rw [show 2 * (u ^ 3 * f y) = u ^ 3 * (2 * f y) by ring]
      exact mul_ne_zero (pow_ne_zero _ hu) this

/-- The map of points `(x, y) ↦ (u² f x, u³ f y)`. -/
def twist {b' : L} (hb : b' = u ^ 6 * f b) : (cubic b).Point →+ (cubic b').Point where
  toFun
    | .zero => .zero
    | .some _ _ h => .some _ _ (twist_nonsingular f u hu b hb h)
  map_zero' := rfl
  map_add' := by
    rintro (_ | ⟨x1, y1, h1⟩) (_ | ⟨x2, y2, h2⟩)
    · rfl
    · rfl
    · rfl
    · have hu2 : u ^ 2 ≠ 0 := pow_ne_zero _ hu
      have hu3 : u ^ 3 ≠ 0 := pow_ne_zero _ hu
      by_cases hxy : x1 = x2 ∧ y1 = (cubic b).negY x2 y2
      · obtain ⟨hx, hy⟩ := hxy
        rw [Point.add_of_Y_eq hx hy]
        refine (Point.add_of_Y_eq ?_ ?_).symm
        · rw [hx]
        · rw [hy, cubic_negY, cubic_negY, map_neg, mul_neg]
      · have hxy' : ¬(u ^ 2 * f x1 = u ^ 2 * f x2 ∧ u ^ 3 * f y1 = (cubic b').negY (u ^ 2 * f x2) (u ^ 3 * f y2)) := by
          rintro ⟨hx, hy⟩
          apply hxy
          refine ⟨f.injective (mul_left_cancel₀ hu2 hx), f.injective (mul_left_cancel₀ hu3 ?_)⟩
          rw [hy, cubic_negY, cubic_negY, map_neg, mul_neg]
        rw [Point.add_some hxy]
        refine Eq.trans ?_ (Point.add_some hxy').symm
        have hs : (cubic b').slope (u ^ 2 * f x1) (u ^ 2 * f x2) (u ^ 3 * f y1) (u ^ 3 * f y2) = u * f ((cubic b).slope x1 x2 y1 y2) := by
          by_cases hx : x1 = x2
          · have hy : y1 ≠ (cubic b).negY x2 y2 := fun h => hxy ⟨hx, h⟩
            have hy' : u ^ 3 * f y1 ≠ (cubic b').negY (u ^ 2 * f x2) (u ^ 3 * f y2) := fun h => hxy' ⟨by rw [hx], h⟩
            rw [slope_of_Y_ne hx hy, slope_of_Y_ne (by rw [hx]) hy', cubic_negY, cubic_negY]
            simp only [cubic, mul_zero, zero_mul, add_zero, sub_zero, map_div₀, map_mul, map_pow, map_sub, map_neg, map_ofNat]
            rw [show 3 * (u ^ 2 * f x1) ^ 2 = u ^ 3 * (u * (3 * f x1 ^ 2)) by ring, show u ^ 3 * f y1 - -(u ^ 3 * f y1) = u ^ 3 * (f y1 - -f y1) by ring,
              mul_div_mul_left _ _ hu3, mul_div_assoc]
          · have hx' : u ^ 2 * f x1 ≠ u ^ 2 * f x2 := fun h => hx (f.injective (mul_left_cancel₀ hu2 h))
            rw [slope_of_X_ne hx, slope_of_X_ne hx']
            simp only [map_div₀, map_sub]
            rw [show u ^ 3 * f y1 - u ^ 3 * f y2 = u ^ 2 * (u * (f y1 - f y2)) by ring, ← mul_sub, mul_div_mul_left _ _ hu2, mul_div_assoc]
        have e1 : u ^ 2 * f ((cubic b).addX x1 x2 ((cubic b).slope x1 x2 y1 y2)) =
            (cubic b').addX (u ^ 2 * f x1) (u ^ 2 * f x2) ((cubic b').slope (u ^ 2 * f x1) (u ^ 2 * f x2) (u ^ 3 * f y1) (u ^ 3 * f y2)) := by
          rw [hs]
          simp only [WeierstrassCurve.Affine.addX, cubic, map_add, map_sub, map_mul, map_pow, map_zero]
          ring
        have e2 : u ^ 3 * f ((cubic b).addY x1 x2 y1 ((cubic b).slope x1 x2 y1 y2)) =
            (cubic b').addY (u ^ 2 * f x1) (u ^ 2 * f x2) (u ^ 3 * f y1)
              ((cubic b').slope (u ^ 2 * f x1) (u ^ 2 * f x2) (u ^ 3 * f y1) (u ^ 3 * f y2)) := by
          rw [WeierstrassCurve.Affine.addY, WeierstrassCurve.Affine.addY, WeierstrassCurve.Affine.negAddY, WeierstrassCurve.Affine.negAddY, ← e1,
            cubic_negY, cubic_negY, hs]
          simp only [map_neg, map_add, map_sub, map_mul]
          ring
        simp only [e1, e2]

/-- `(x, y) ↦ (c f x, d f y)`. -/
def endo {c d : L} (hc : c ≠ 0) (hd : d ≠ 0) (hcd : c ^ 3 = d ^ 2) {b' : L} (hb : b' = d ^ 2 * f b) : (cubic b).Point →+ (cubic b').Point :=
  twist f (d / c) (div_ne_zero hd hc) b (by
    rw [hb, div_pow, show c ^ 6 = (c ^ 3) ^ 2 by ring, hcd, show d ^ 6 = d ^ 2 * (d ^ 2) ^ 2 by ring,
      mul_div_cancel_right₀ _ (pow_ne_zero _ (pow_ne_zero _ hd))])

theorem twist_some {b' : L} (hb : b' = u ^ 6 * f b) {x y : K} (h : (cubic b).Nonsingular x y) :
    twist f u hu b hb (.some x y h) = .some _ _ (twist_nonsingular f u hu b hb h) := rfl

theorem endo_some {c d : L} (hc : c ≠ 0) (hd : d ≠ 0) (hcd : c ^ 3 = d ^ 2) {b' : L} (hb : b' = d ^ 2 * f b) {x y : K}
    (h : (cubic b).Nonsingular x y) : ∃ h', endo f b hc hd hcd hb (.some x y h) = .some (c * f x) (d * f y) h' := by
  have e1 : (d / c) ^ 2 * f x = c * f x := by
    rw [div_pow, ← hcd, pow_succ, mul_div_cancel_left₀ _ (pow_ne_zero 2 hc)]
  have e2 : (d / c) ^ 3 * f y = d * f y := by
    rw [div_pow, hcd, show d ^ 3 = d ^ 2 * d by ring, mul_div_cancel_left₀ _ (pow_ne_zero 2 hd)]
  have h' := twist_nonsingular f (d / c) (div_ne_zero hd hc) b (b' := b') (by
    rw [hb, div_pow, show c ^ 6 = (c ^ 3) ^ 2 by ring, hcd, show d ^ 6 = d ^ 2 * (d ^ 2) ^ 2 by ring,
      mul_div_cancel_right₀ _ (pow_ne_zero _ (pow_ne_zero _ hd))]) h
  rw [e1, e2] at h'
  refine ⟨h', ?_⟩
  rw [endo, twist_some]
  simp only [e1, e2]

end

section
variable {K : Type} [Field K] [DecidableEq K] {b : K}

theorem cubic_smooth (h2 : (2 : K) ≠ 0) (h3 : (3 : K) ≠ 0) (hb : b ≠ 0) {x y : K} (h : y ^ 2 = x ^ 3 + b) : (cubic b).Nonsingular x y := by
  rw [cubic_nonsingular]
  refine ⟨h, ?_⟩
  by_contra hn
  rw [not_or, not_not, not_not] at hn
  obtain ⟨hx, hy⟩ := hn
  have hx0 : x = 0 := by simpa [h3] using hx
  have hy0 : y = 0 := by simpa [h2] using hy
  apply hb
  rw [hx0, hy0] at h
  linear_combination -h

theorem point_eq {x y x' y' : K} (h : (cubic b).Nonsingular x y) (hx : x = x') (hy : y = y') :
    (.some x y h : (cubic b).Point) = .some x' y' (by rw [← hx, ← hy]; exact h) := by subst hx hy; rfl

theorem point_inj {x y x' y' : K} {h : (cubic b).Nonsingular x y} {h' : (cubic b).Nonsingular x' y'} :
    (.some x y h : (cubic b).Point) = .some x' y' h' ↔ x = x' ∧ y = y' := by
  constructor
  · intro he; cases he; exact ⟨rfl, rfl⟩
  · rintro ⟨rfl, rfl⟩; rfl

theorem point_neg {x y : K} (h : (cubic b).Nonsingular x y) (h' : (cubic b).Nonsingular x (-y)) :
    -(.some x y h : (cubic b).Point) = .some x (-y) h' := by
  rw [Point.neg_some, point_inj, cubic_negY]
  exact ⟨rfl, rfl⟩

/-- The points with coordinates `x`, `ω x`, `ω² x` and the same `y` add up to zero. -/
theorem omega_sum {w x y : K} (hw : w ^ 2 + w + 1 = 0) (hw1 : w ≠ 1) (h : (cubic b).Nonsingular x y)
    (h' : (cubic b).Nonsingular (w * x) y) (h'' : (cubic b).Nonsingular (w * (w * x)) y) :
    (.some _ _ h : (cubic b).Point) + .some _ _ h' + .some _ _ h'' = 0 := by
  have hw3 : w ^ 3 = 1 := by linear_combination (w - 1) * hw
  have e0 : (.some _ _ h : (cubic b).Point) + .some _ _ h' = -(.some _ _ h'') := by
    rw [Point.neg_some]
    by_cases hx : x = 0
    · subst hx
      have hy : y ≠ (cubic b).negY (w * 0) y := by
        rw [cubic_negY]
        intro hy
        have : 2 * y = 0 := by linear_combination hy
        rcases ((cubic_nonsingular _ _ _).mp h).2 with h0 | h0
        · simp at h0
        · exact h0 this
      rw [Point.add_some (fun hh => hy hh.2), point_inj]
      have hs : (cubic b).slope 0 (w * 0) y y = 0 := by
        rw [slope_of_Y_ne (by simp) hy]
        simp [cubic]
      rw [WeierstrassCurve.Affine.addY, WeierstrassCurve.Affine.negAddY, hs, cubic_negY, cubic_negY]
      simp [WeierstrassCurve.Affine.addX, cubic]
    · have hne : x ≠ w * x := by
        intro hh
        apply hw1
        have : (w - 1) * x = 0 := by linear_combination -hh
        rcases mul_eq_zero.mp this with h0 | h0
        · linear_combination h0
        · exact absurd h0 hx
      rw [Point.add_of_X_ne hne, point_inj]
      have hs : (cubic b).slope x (w * x) y y = 0 := by
        rw [slope_of_X_ne hne]; simp
      rw [WeierstrassCurve.Affine.addY, WeierstrassCurve.Affine.negAddY, hs, cubic_negY, cubic_negY]
      simp only [WeierstrassCurve.Affine.addX, cubic]
      refine ⟨by linear_combination (-x) * hw, by ring⟩
  rw [e0, neg_add_cancel]

end
end GS
