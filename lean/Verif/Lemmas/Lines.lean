import Verif.Lemmas.Cocycle
import Verif.Lemmas.Twist

/-! # Lines through points of `y² = x³ + b` -/

open WeierstrassCurve.Affine

namespace GS
variable {L : Type} [Field L] [DecidableEq L] {b : L}

/-- A line through two points that is not vertical, and the third point on it. -/
structure RealLine (b x₁ y₁ x₂ y₂ l x₃ : L) : Prop where
  one : y₁ ^ 2 = x₁ ^ 3 + b
  two : y₂ = y₁ + l * (x₂ - x₁)
  sum : x₁ + x₂ + x₃ = l ^ 2
  sum2 : x₁ * x₂ + x₁ * x₃ + x₂ * x₃ = -2 * l * (y₁ - l * x₁)
  prod : x₁ * x₂ * x₃ = (y₁ - l * x₁) ^ 2 - b

theorem realLine {x₁ y₁ x₂ y₂ : L} (h₁ : (cubic b).Nonsingular x₁ y₁) (h₂ : (cubic b).Nonsingular x₂ y₂)
    (hxy : ¬(x₁ = x₂ ∧ y₁ = (cubic b).negY x₂ y₂)) :
    ∃ x₃ y₃ h₃, (.some x₁ y₁ h₁ + .some x₂ y₂ h₂ : (cubic b).Point) = .some x₃ y₃ h₃ ∧
      RealLine b x₁ y₁ x₂ y₂ ((cubic b).slope x₁ x₂ y₁ y₂) x₃ ∧ -y₃ = y₁ + (cubic b).slope x₁ x₂ y₁ y₂ * (x₃ - x₁) := by
  have e1 := ((cubic_nonsingular _ _ _).mp h₁).1
  have e2 := ((cubic_nonsingular _ _ _).mp h₂).1
  rw [cubic_negY] at hxy
  have hK : y₂ = y₁ + (cubic b).slope x₁ x₂ y₁ y₂ * (x₂ - x₁) ∧
      (cubic b).slope x₁ x₂ y₁ y₂ ^ 2 * (x₂ - x₁) + 2 * y₁ * (cubic b).slope x₁ x₂ y₁ y₂ = x₁ ^ 2 + x₁ * x₂ + x₂ ^ 2 := by
    by_cases hx : x₁ = x₂
    · subst hx
      have hy : y₁ ≠ -y₂ := fun h => hxy ⟨rfl, h⟩
      have : y₁ = y₂ := by
        have h0 : (y₁ - y₂) * (y₁ + y₂) = 0 := by linear_combination e1 - e2
        rcases mul_eq_zero.mp h0 with h | h
        · exact sub_eq_zero.mp h
        · exact absurd (eq_neg_of_add_eq_zero_left h) hy
      subst this
      have hs : (cubic b).slope x₁ x₁ y₁ y₁ = 3 * x₁ ^ 2 / (y₁ + y₁) := by
        rw [slope_of_Y_ne rfl (by rw [cubic_negY]; exact hy), cubic_negY]
        simp [cubic]
      have h2 : y₁ + y₁ ≠ 0 := fun h => hy (eq_neg_of_add_eq_zero_left h)
      have hl : (cubic b).slope x₁ x₁ y₁ y₁ * (y₁ + y₁) = 3 * x₁ ^ 2 := by rw [hs, div_mul_cancel₀ _ h2]
      exact ⟨by ring, by linear_combination hl⟩
    · have hd := sub_ne_zero.mpr hx
      have hs : (cubic b).slope x₁ x₂ y₁ y₂ * (x₁ - x₂) = y₁ - y₂ := by rw [slope_of_X_ne hx, div_mul_cancel₀ _ hd]
      have h2 : y₂ = y₁ + (cubic b).slope x₁ x₂ y₁ y₂ * (x₂ - x₁) := by linear_combination hs
      refine ⟨h2, mul_right_cancel₀ hd ?_⟩
      generalize (cubic b).slope x₁ x₂ y₁ y₂ = l at *
      subst h2
      linear_combination e1 - e2
  obtain ⟨k1, k2⟩ := hK
  have h := Point.add_some (h₁ := h₁) (h₂ := h₂) (by rw [cubic_negY]; exact hxy)
  refine ⟨_, _, _, h, ?_, ?_⟩
  · have hx : (cubic b).addX x₁ x₂ ((cubic b).slope x₁ x₂ y₁ y₂) = (cubic b).slope x₁ x₂ y₁ y₂ ^ 2 - x₁ - x₂ := by
      simp [addX, cubic]
    rw [hx]
    clear h hx
    generalize (cubic b).slope x₁ x₂ y₁ y₂ = l at *
    exact ⟨e1, k1, by ring, by linear_combination k2, by linear_combination x₁ * k2 - e1⟩
  · rw [addY, cubic_negY, neg_neg, negAddY]
    ring

theorem lineAt_real {x₁ y₁ x₂ y₂ : L} {h₁ : (cubic b).Nonsingular x₁ y₁} {h₂ : (cubic b).Nonsingular x₂ y₂}
    (hxy : ¬(x₁ = x₂ ∧ y₁ = (cubic b).negY x₂ y₂)) (x y : L) :
    lineAt (.some x₁ y₁ h₁ : (cubic b).Point) (.some x₂ y₂ h₂) x y = y - (y₁ + (cubic b).slope x₁ x₂ y₁ y₂ * (x - x₁)) := if_neg hxy

/-- The value of a line at a point. -/
def lineOn (A B P : (cubic b).Point) : L :=
  match P with
  | .zero => 1
  | .some x y _ => lineAt A B x y

/-- The values at a point and its negative. -/
theorem lineAt_neg_mul (A B : (cubic b).Point) {x y : L} (h : y ^ 2 = x ^ 3 + b) :
    ∃ s : L, s ^ 4 = 1 ∧ lineAt A B x y * lineAt A B x (-y) = s * (vertAt A x * vertAt B x * vertAt (A + B) x) := by
  rcases A with _ | ⟨x₁, y₁, h₁⟩
  · refine ⟨1, one_pow 4, ?_⟩
    rw [← Point.zero_def, zero_add]
    show vertAt B x * vertAt B x = 1 * (1 * vertAt B x * vertAt B x)
    ring
  · rcases B with _ | ⟨x₂, y₂, h₂⟩
    · refine ⟨1, one_pow 4, ?_⟩
      rw [← Point.zero_def, add_zero]
      show (x - x₁) * (x - x₁) = 1 * ((x - x₁) * 1 * (x - x₁))
      ring
    · by_cases hxy : x₁ = x₂ ∧ y₁ = (cubic b).negY x₂ y₂
      · refine ⟨1, one_pow 4, ?_⟩
        rw [Point.add_of_Y_eq hxy.1 hxy.2]
        show (if _ then _ else _) * (if _ then _ else _) = 1 * ((x - x₁) * (x - x₂) * 1)
        rw [if_pos hxy, if_pos hxy, hxy.1]
        ring
      · refine ⟨-1, by ring, ?_⟩
        obtain ⟨x₃, y₃, h₃, e, r, -⟩ := realLine h₁ h₂ hxy
        rw [e]
        show (if _ then _ else _) * (if _ then _ else _) = -1 * ((x - x₁) * (x - x₂) * (x - x₃))
        rw [if_neg hxy, if_neg hxy]
        generalize (cubic b).slope x₁ x₂ y₁ y₂ = l at *
        linear_combination -h - x ^ 2 * r.sum + x * r.sum2 - r.prod

theorem slope_neg (x₁ x₂ y₁ y₂ : L) (hxy : ¬(x₁ = x₂ ∧ y₁ = -y₂)) :
    (cubic b).slope x₁ x₂ (-y₁) (-y₂) = -(cubic b).slope x₁ x₂ y₁ y₂ := by
  by_cases hx : x₁ = x₂
  · subst hx
    have hy : y₁ ≠ -y₂ := fun h => hxy ⟨rfl, h⟩
    have hy' : -y₁ ≠ - -y₂ := fun h => hy (neg_injective h)
    rw [slope_of_Y_ne rfl (by rw [cubic_negY]; exact hy'), slope_of_Y_ne rfl (by rw [cubic_negY]; exact hy), cubic_negY, cubic_negY]
    simp only [cubic, mul_zero, zero_mul, add_zero, sub_zero]
    rw [show -y₁ - - -y₁ = -(y₁ - -y₁) by ring, div_neg]
  · rw [slope_of_X_ne hx, slope_of_X_ne hx, show -y₁ - -y₂ = -(y₁ - y₂) by ring, neg_div]

theorem lineAt_neg (A B : (cubic b).Point) (x y : L) : ∃ s : L, s ^ 4 = 1 ∧ lineAt (-A) (-B) x y = s * lineAt A B x (-y) := by
  have hv (A : (cubic b).Point) : vertAt (-A) x = vertAt A x := by
    rcases A with _ | ⟨x₁, y₁, h₁⟩ <;> rfl
  rcases A with _ | ⟨x₁, y₁, h₁⟩
  · exact ⟨1, one_pow 4, by rw [one_mul]; exact hv B⟩
  · rcases B with _ | ⟨x₂, y₂, h₂⟩
    · exact ⟨1, one_pow 4, (one_mul _).symm⟩
    · have e : lineAt (-.some x₁ y₁ h₁ : (cubic b).Point) (-.some x₂ y₂ h₂) x y = if x₁ = x₂ ∧ (cubic b).negY x₁ y₁ = (cubic b).negY x₂ ((cubic b).negY x₂ y₂)
          then x - x₁ else y - ((cubic b).negY x₁ y₁ + (cubic b).slope x₁ x₂ ((cubic b).negY x₁ y₁) ((cubic b).negY x₂ y₂) * (x - x₁)) := rfl
      have e' : lineAt (.some x₁ y₁ h₁ : (cubic b).Point) (.some x₂ y₂ h₂) x (-y) = if x₁ = x₂ ∧ y₁ = (cubic b).negY x₂ y₂ then x - x₁ else
        -y - (y₁ + (cubic b).slope x₁ x₂ y₁ y₂ * (x - x₁)) := rfl
      rw [e, e']
      simp only [cubic_negY]
      by_cases hxy : x₁ = x₂ ∧ y₁ = -y₂
      · refine ⟨1, one_pow 4, ?_⟩
        rw [if_pos hxy, if_pos ⟨hxy.1, by rw [hxy.2]⟩, one_mul]
      · refine ⟨-1, by ring, ?_⟩
        rw [if_neg hxy, if_neg fun h => hxy ⟨h.1, neg_injective h.2⟩,
          slope_neg _ _ _ _ hxy]
        ring

/-- Reciprocity: the values of one line at the points of another. -/
theorem reciprocity {A B P Q : (cubic b).Point} (hA : A ≠ 0) (hB : B ≠ 0) (hAB : A + B ≠ 0) (hP : P ≠ 0) (hQ : Q ≠ 0) (hPQ : P + Q ≠ 0) :
    lineOn A B P * lineOn A B Q * lineOn A B (-(P + Q)) = -(lineOn P Q A * lineOn P Q B * lineOn P Q (-(A + B))) := by
  rcases A with _ | ⟨x₁, y₁, h₁⟩
  · exact absurd rfl hA
  rcases B with _ | ⟨x₂, y₂, h₂⟩
  · exact absurd rfl hB
  rcases P with _ | ⟨u₁, v₁, k₁⟩
  · exact absurd rfl hP
  rcases Q with _ | ⟨u₂, v₂, k₂⟩
  · exact absurd rfl hQ
  have hxy : ¬(x₁ = x₂ ∧ y₁ = (cubic b).negY x₂ y₂) := fun h => hAB (Point.add_of_Y_eq h.1 h.2)
  have huv : ¬(u₁ = u₂ ∧ v₁ = (cubic b).negY u₂ v₂) := fun h => hPQ (Point.add_of_Y_eq h.1 h.2)
  obtain ⟨x₃, y₃, h₃, e, r, r'⟩ := realLine h₁ h₂ hxy
  obtain ⟨u₃, v₃, k₃, f, s, s'⟩ := realLine k₁ k₂ huv
  rw [e, f, Point.neg_some, Point.neg_some]
  simp only [lineOn]
  rw [lineAt_real hxy, lineAt_real hxy, lineAt_real hxy, lineAt_real huv, lineAt_real huv, lineAt_real huv, cubic_negY, cubic_negY, r', s']
  have r2 := r.two
  have s2 := s.two
  generalize (cubic b).slope x₁ x₂ y₁ y₂ = l at *
  generalize (cubic b).slope u₁ u₂ v₁ v₂ = m at *
  rw [r2, s2]
  obtain ⟨-, -, a1, a2, a3⟩ := r
  obtain ⟨-, -, b1, b2, b3⟩ := s
  linear_combination (m - l) ^ 3 * (b3 - a3) + (m - l) ^ 2 * ((v₁ - m * u₁) - (y₁ - l * x₁)) * (b2 - a2) +
    (m - l) * ((v₁ - m * u₁) - (y₁ - l * x₁)) ^ 2 * (b1 - a1)

/-! ## Images of lines -/

section
variable {K : Type} [Field K] [DecidableEq K] (f : K →+* L) (u : L) (hu : u ≠ 0) (b : K) {b' : L} (hb : b' = u ^ 6 * f b)

include hu in
theorem slope_twist {x1 x2 y1 y2 : K} (hxy : ¬(x1 = x2 ∧ y1 = (cubic b).negY x2 y2)) :
    (cubic b').slope (u ^ 2 * f x1) (u ^ 2 * f x2) (u ^ 3 * f y1) (u ^ 3 * f y2) = u * f ((cubic b).slope x1 x2 y1 y2) := by
  have hu2 : u ^ 2 ≠ 0 := pow_ne_zero _ hu
  have hu3 : u ^ 3 ≠ 0 := pow_ne_zero _ hu
  by_cases hx : x1 = x2
  · have hy : y1 ≠ (cubic b).negY x2 y2 := fun h => hxy ⟨hx, h⟩
    have hy' : u ^ 3 * f y1 ≠ (cubic b').negY (u ^ 2 * f x2) (u ^ 3 * f y2) := fun h => hy (f.injective (mul_left_cancel₀ hu3 (by
      rw [h, cubic_negY, cubic_negY, map_neg, mul_neg])))
    rw [slope_of_Y_ne hx hy, slope_of_Y_ne (by rw [hx]) hy', cubic_negY, cubic_negY]
    simp only [cubic, mul_zero, zero_mul, add_zero, sub_zero, map_div₀, map_mul, map_pow, map_sub, map_neg, map_ofNat]
    rw [show 3 * (u ^ 2 * f x1) ^ 2 = u ^ 3 * (u * (3 * f x1 ^ 2)) by ring, show u ^ 3 * f y1 - -(u ^ 3 * f y1) = u ^ 3 * (f y1 - -f y1) by ring,
      mul_div_mul_left _ _ hu3, mul_div_assoc]
  · have hx' : u ^ 2 * f x1 ≠ u ^ 2 * f x2 := fun h => hx (f.injective (mul_left_cancel₀ hu2 h))
    rw [slope_of_X_ne hx, slope_of_X_ne hx']
    simp only [map_div₀, map_sub]
    rw [show u ^ 3 * f y1 - u ^ 3 * f y2 = u ^ 2 * (u * (f y1 - f y2)) by ring, ← mul_sub, mul_div_mul_left _ _ hu2, mul_div_assoc]

/-- The value of a line through images at an image. -/
theorem lineAt_twist {b' : L} (hb : b' = u ^ 6 * f b) (A B : (cubic b).Point) (x y : K) :
    ∃ n, lineAt (twist f u hu b hb A) (twist f u hu b hb B) (u ^ 2 * f x) (u ^ 3 * f y) = u ^ n * f (lineAt A B x y) := by
  have hv (A : (cubic b).Point) : ∃ n, vertAt (twist f u hu b hb A) (u ^ 2 * f x) = u ^ n * f (vertAt A x) := by
    rcases A with _ | ⟨x1, y1, h1⟩
    · refine ⟨0, ?_⟩
      show (1 : L) = u ^ 0 * f 1
      rw [map_one, pow_zero, mul_one]
    · refine ⟨2, ?_⟩
      show u ^ 2 * f x - u ^ 2 * f x1 = u ^ 2 * f (x - x1)
      rw [map_sub, mul_sub]
  rcases A with _ | ⟨x1, y1, h1⟩
  · exact hv B
  · rcases B with _ | ⟨x2, y2, h2⟩
    · exact hv (.some x1 y1 h1)
    · rw [twist_some, twist_some]
      by_cases hxy : x1 = x2 ∧ y1 = (cubic b).negY x2 y2
      · have e : lineAt (.some x1 y1 h1 : (cubic b).Point) (.some x2 y2 h2) x y = x - x1 := if_pos hxy
        refine ⟨2, ?_⟩
        rw [e]
        have e' : lineAt (.some _ _ (twist_nonsingular f u hu b hb h1) : (cubic b').Point) (.some _ _ (twist_nonsingular f u hu b hb h2)) (u ^ 2 * f x) (u ^ 3 * f y) =
            u ^ 2 * f x - u ^ 2 * f x1 := if_pos ⟨by rw [hxy.1], by rw [hxy.2, cubic_negY, cubic_negY, map_neg, mul_neg]⟩
        rw [e', map_sub, mul_sub]
      · have hxy' : ¬(u ^ 2 * f x1 = u ^ 2 * f x2 ∧ u ^ 3 * f y1 = (cubic b').negY (u ^ 2 * f x2) (u ^ 3 * f y2)) := by
          rintro ⟨hx, hy⟩
          apply hxy
          refine ⟨f.injective (mul_left_cancel₀ (pow_ne_zero 2 hu) hx), f.injective (mul_left_cancel₀ (pow_ne_zero 3 hu) ?_)⟩
          rw [hy, cubic_negY, cubic_negY, map_neg, mul_neg]
        refine ⟨3, ?_⟩
        rw [lineAt_real hxy, lineAt_real hxy', slope_twist f u hu b hxy]
        simp only [map_sub, map_add, map_mul]
        ring

end

end GS
