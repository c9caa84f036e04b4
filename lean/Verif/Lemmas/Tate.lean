import Verif.Lemmas.Lines

/-! # Powers of the values of lines, for an exponent that removes the values of verticals -/

namespace GS
open WeierstrassCurve.Affine
variable {L : Type} [Field L] [DecidableEq L] {b : L} {M : Nat} (h4 : 4 ∣ M)

omit [DecidableEq L] in
include h4 in
theorem root_dies {c : L} (hc : c ^ 4 = 1) : c ^ M = 1 := by
  obtain ⟨k, rfl⟩ := h4
  rw [pow_mul, hc, one_pow]

/-- The value of a vertical at a point. -/
def vertOn (A P : (cubic b).Point) : L :=
  match P with
  | .zero => 1
  | .some x _ _ => vertAt A x

include h4 in
theorem vertOn_comm (A P : (cubic b).Point) : vertOn A P ^ M = vertOn P A ^ M := by
  rcases A with _ | ⟨x₁, y₁, h₁⟩
  · rcases P with _ | ⟨x₂, y₂, h₂⟩ <;> rfl
  · rcases P with _ | ⟨x₂, y₂, h₂⟩
    · rfl
    · show (x₂ - x₁) ^ M = (x₁ - x₂) ^ M
      rw [← neg_sub x₁ x₂, neg_pow, root_dies h4 (by norm_num), one_mul]

include h4 in
/-- The powers are a cocycle. -/
theorem line_cocycle {x y : L} (h : (cubic b).Equation x y) {A B D : (cubic b).Point} (h1 : vertAt (A + B) x ^ M = 1) (h2 : vertAt (B + D) x ^ M = 1) :
    lineAt A B x y ^ M * lineAt (A + B) D x y ^ M = lineAt B D x y ^ M * lineAt A (B + D) x y ^ M := by
  obtain ⟨c, hc, e⟩ := lineAt_assoc h A B D
  have := congrArg (· ^ M) e
  simpa only [mul_pow, h1, h2, root_dies h4 hc, mul_one] using this

include h4 in
theorem line_neg_mul {A B : (cubic b).Point} {x y : L} (h : y ^ 2 = x ^ 3 + b) (hA : vertAt A x ^ M = 1) (hB : vertAt B x ^ M = 1)
    (hAB : vertAt (A + B) x ^ M = 1) : lineAt A B x y ^ M * lineAt A B x (-y) ^ M = 1 := by
  obtain ⟨s, hs, e⟩ := lineAt_neg_mul A B h
  have := congrArg (· ^ M) e
  simpa only [mul_pow, hA, hB, hAB, root_dies h4 hs, mul_one] using this

include h4 in
theorem line_neg {A B : (cubic b).Point} {x y : L} (h : y ^ 2 = x ^ 3 + b) (hA : vertAt A x ^ M = 1) (hB : vertAt B x ^ M = 1)
    (hAB : vertAt (A + B) x ^ M = 1) : lineAt (-A) (-B) x y ^ M * lineAt A B x y ^ M = 1 := by
  obtain ⟨s, hs, e⟩ := lineAt_neg A B x y
  rw [e, mul_pow, root_dies h4 hs, one_mul, mul_comm]
  exact line_neg_mul h4 h hA hB hAB

theorem lineOn_zero (A B : (cubic b).Point) : lineOn A B (0 : (cubic b).Point) = 1 := rfl

theorem lineOn_zero_left (B P : (cubic b).Point) : lineOn 0 B P = vertOn B P := by
  rcases P with _ | ⟨x, y, h⟩ <;> rfl

theorem lineOn_zero_right (A P : (cubic b).Point) : lineOn A 0 P = vertOn A P := by
  rcases A with _ | ⟨x₁, y₁, h₁⟩ <;> rcases P with _ | ⟨x, y, h⟩ <;> rfl

theorem lineOn_opposite (A P : (cubic b).Point) : lineOn A (-A) P = vertOn A P := by
  rcases P with _ | ⟨x, y, h⟩
  · rfl
  · rcases A with _ | ⟨x₁, y₁, h₁⟩
    · rfl
    · show (if _ then _ else _) = _
      rw [if_pos ⟨rfl, by rw [negY_negY]⟩]
      rfl

include h4 in
theorem lineOn_neg_mul {A B P : (cubic b).Point} (hA : vertOn A P ^ M = 1) (hB : vertOn B P ^ M = 1) (hAB : vertOn (A + B) P ^ M = 1) :
    lineOn A B P ^ M * lineOn A B (-P) ^ M = 1 := by
  rcases P with _ | ⟨x, y, h⟩
  · show (1 : L) ^ M * 1 ^ M = 1
    simp
  · show lineAt A B x y ^ M * lineAt A B x ((cubic b).negY x y) ^ M = 1
    rw [cubic_negY]
    exact line_neg_mul h4 ((cubic_nonsingular b x y).mp h).1 hA hB hAB

include h4 in
/-- Exchanging the line and the points at which it is evaluated. -/
theorem line_exchange {A B P Q : (cubic b).Point} (hP : P ≠ 0) (hQ : Q ≠ 0) (hPQ : P + Q ≠ 0)
    (hv : ∀ X ∈ [A, B, A + B], ∀ Y ∈ [P, Q, P + Q], vertOn X Y ^ M = 1) :
    lineOn A B P ^ M * lineOn A B Q ^ M * lineOn P Q (A + B) ^ M = lineOn A B (P + Q) ^ M * lineOn P Q A ^ M * lineOn P Q B ^ M := by
  by_cases hA : A = 0
  · subst hA
    have hB : ∀ Y ∈ [P, Q, P + Q], vertOn B Y ^ M = 1 := fun Y hY => hv B (by simp) Y hY
    simp only [lineOn_zero_left, lineOn_zero, zero_add, hB P (by simp), hB Q (by simp), hB (P + Q) (by simp), one_pow, one_mul]
  by_cases hB : B = 0
  · subst hB
    have hA : ∀ Y ∈ [P, Q, P + Q], vertOn A Y ^ M = 1 := fun Y hY => hv A (by simp) Y hY
    simp only [lineOn_zero_right, lineOn_zero, add_zero, hA P (by simp), hA Q (by simp), hA (P + Q) (by simp), one_pow, one_mul, mul_one]
  have hw : ∀ X ∈ [A, B, A + B], lineOn P Q X ^ M * lineOn P Q (-X) ^ M = 1 := fun X hX =>
    lineOn_neg_mul h4 (by rw [vertOn_comm h4]; exact hv X hX P (by simp)) (by rw [vertOn_comm h4]; exact hv X hX Q (by simp))
      (by rw [vertOn_comm h4]; exact hv X hX (P + Q) (by simp))
  by_cases hAB : A + B = 0
  · obtain rfl : B = -A := (neg_eq_of_add_eq_zero_right hAB).symm
    have hA' : ∀ Y ∈ [P, Q, P + Q], vertOn A Y ^ M = 1 := fun Y hY => hv A (by simp) Y hY
    simp only [lineOn_opposite, add_neg_cancel, lineOn_zero, hA' P (by simp), hA' Q (by simp), hA' (P + Q) (by simp), one_pow, one_mul, mul_one]
    exact (hw A (by simp)).symm
  · have h := congrArg (· ^ M) (reciprocity hA hB hAB hP hQ hPQ)
    simp only [mul_pow, neg_pow (lineOn P Q A * _ * _), root_dies h4 (c := (-1 : L)) (by norm_num), one_mul] at h
    have h1 := lineOn_neg_mul h4 (hv A (by simp) (P + Q) (by simp)) (hv B (by simp) (P + Q) (by simp)) (hv (A + B) (by simp) (P + Q) (by simp))
    have h2 := hw (A + B) (by simp)
    generalize lineOn A B P ^ M = a at *
    generalize lineOn A B Q ^ M = c at *
    generalize lineOn A B (P + Q) ^ M = d at *
    generalize lineOn A B (-(P + Q)) ^ M = d' at *
    generalize lineOn P Q (A + B) ^ M = e at *
    generalize lineOn P Q (-(A + B)) ^ M = e' at *
    linear_combination d * e * h - a * c * e * h1 + d * lineOn P Q A ^ M * lineOn P Q B ^ M * h2

end GS
