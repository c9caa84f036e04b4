import Mathlib.RingTheory.Int.Basic
import Mathlib.Data.Nat.Prime.Int
import Mathlib.Tactic.IntervalCases
import Mathlib.Tactic.LinearCombination
import Mathlib.Algebra.Order.Ring.Abs

/-! # Which numbers of points there are with a known divisor -/

namespace GS

/-- A multiple of `r` in an interval that is shorter than `r`. -/
theorem unique_multiple {r q s t B : ℤ} {k h : ℤ} (hk : r * k = q + 1 + t) (ht : t ^ 2 ≤ 4 * q) (hB : 0 < B) (hq : 4 * q < B ^ 2) (hh : r * h = q + 1 + s)
    (hs : |s| < B) (hr : 2 * B ≤ r) : k = h := by
  have ht' : |t| < B := abs_lt_of_sq_lt_sq (ht.trans_lt hq) hB.le
  by_contra hne
  have h1 : (1 : ℤ) ≤ |k - h| := Int.one_le_abs (sub_ne_zero.mpr hne)
  have h2 : r * |k - h| < 2 * B := by
    have : r * |k - h| = |t - s| := by
      rw [← abs_of_pos (show 0 < r by omega), ← abs_mul]
      congr 1; linear_combination hk - hh
    rw [this]
    exact (abs_sub _ _).trans_lt (by omega)
  nlinarith

/-- `m² + m n + n²`. -/
def eisNorm (z : ℤ × ℤ) : ℤ := z.1 ^ 2 + z.1 * z.2 + z.2 ^ 2

/-- Multiplication by `c + d μ`, where `μ² = μ - 1`. -/
def eisMul (c d : ℤ) (z : ℤ × ℤ) : ℤ × ℤ := (c * z.1 - d * z.2, c * z.2 + d * z.1 + d * z.2)

/-- Elements whose norm is divisible by a prime `p = c² + c d + d²` are multiples of `c + d μ` or its conjugate. -/
theorem eis_div {p c d : ℤ} (hp : Prime p) (hcd : c ^ 2 + c * d + d ^ 2 = p) {z : ℤ × ℤ} (hz : p ∣ eisNorm z) :
    ∃ z', (z = eisMul c d z' ∨ z = eisMul (c + d) (-d) z') ∧ eisNorm z = p * eisNorm z' := by
  obtain ⟨a, b⟩ := z
  obtain ⟨k, hk⟩ := hz
  simp only [eisNorm] at hk ⊢
  have hp0 : p ≠ 0 := hp.ne_zero
  have hprod : p ∣ (b * c - a * d) * (b * c + a * d + b * d) := ⟨b ^ 2 - d ^ 2 * k, by linear_combination (b ^ 2) * hcd - d ^ 2 * hk⟩
  rcases hp.dvd_or_dvd hprod with ⟨Y, hY⟩ | ⟨Y, hY⟩
  · have hX : p ∣ (a * c + a * d + b * d) ^ 2 := by
      refine ⟨p * k - (a * c + a * d + b * d) * Y - Y * (p * Y), ?_⟩
      linear_combination (a ^ 2 + a * b + b ^ 2) * hcd + p * hk - (a * c + a * d + b * d) * hY - (b * c - a * d + p * Y) * hY
    obtain ⟨X, hX⟩ := hp.dvd_of_dvd_pow hX
    have e1 : a = c * X - d * Y := mul_left_cancel₀ hp0 (by linear_combination (-a) * hcd + c * hX - d * hY)
    have e2 : b = c * Y + d * X + d * Y := mul_left_cancel₀ hp0 (by linear_combination (-b) * hcd + (c + d) * hY + d * hX)
    refine ⟨(X, Y), .inl (Prod.ext e1 e2), ?_⟩
    simp only
    rw [e1, e2, ← hcd]; ring
  · have hX : p ∣ (a * c - b * d) ^ 2 := by
      refine ⟨p * k - (a * c - b * d) * Y - Y * (p * Y), ?_⟩
      linear_combination (a ^ 2 + a * b + b ^ 2) * hcd + p * hk - (a * c - b * d) * hY - (b * c + a * d + b * d + p * Y) * hY
    obtain ⟨X, hX⟩ := hp.dvd_of_dvd_pow hX
    have e1 : a = (c + d) * X - (-d) * Y := mul_left_cancel₀ hp0 (by linear_combination (-a) * hcd + (c + d) * hX + d * hY)
    have e2 : b = (c + d) * Y + (-d) * X + (-d) * Y := mul_left_cancel₀ hp0 (by linear_combination (-b) * hcd + c * hY - d * hX)
    refine ⟨(X, Y), .inr (Prod.ext e1 e2), ?_⟩
    simp only
    rw [e1, e2, ← hcd]; ring

/-- The elements of norm one. -/
def eisUnits : List (ℤ × ℤ) := [(1, 0), (-1, 0), (0, 1), (0, -1), (1, -1), (-1, 1)]

theorem eis_unit {z : ℤ × ℤ} (hz : eisNorm z = 1) : z ∈ eisUnits := by
  obtain ⟨a, b⟩ := z
  simp only [eisNorm] at hz
  have hb1 : b ≤ 1 := by nlinarith [sq_nonneg (2 * a + b)]
  have hb2 : -1 ≤ b := by nlinarith [sq_nonneg (2 * a + b)]
  have ha1 : a ≤ 1 := by nlinarith [sq_nonneg (2 * b + a)]
  have ha2 : -1 ≤ a := by nlinarith [sq_nonneg (2 * b + a)]
  interval_cases a <;> interval_cases b <;> simp_all [eisUnits]

/-- The elements of norm `p²`. -/
theorem eis_square {p c d : ℤ} (hp : Prime p) (hcd : c ^ 2 + c * d + d ^ 2 = p) {z : ℤ × ℤ} (hz : eisNorm z = p ^ 2) :
    ∃ w ∈ eisUnits, ∃ f ∈ [eisMul c d, eisMul (c + d) (-d)], ∃ g ∈ [eisMul c d, eisMul (c + d) (-d)], z = g (f w) := by
  obtain ⟨z1, h1, n1⟩ := eis_div hp hcd (hz ▸ Dvd.intro_left p (pow_two p).symm)
  have n1' : eisNorm z1 = p := mul_left_cancel₀ hp.ne_zero (by rw [← n1, hz, pow_two])
  obtain ⟨z2, h2, n2⟩ := eis_div hp hcd (Dvd.intro 1 (by rw [mul_one, n1'] : p * 1 = eisNorm z1))
  have n2' : eisNorm z2 = 1 := mul_left_cancel₀ hp.ne_zero (by rw [← n2, n1', mul_one])
  refine ⟨z2, eis_unit n2', ?_⟩
  rcases h2 with rfl | rfl <;> rcases h1 with rfl | rfl
  · exact ⟨_, List.mem_cons_self, _, List.mem_cons_self, rfl⟩
  · exact ⟨_, List.mem_cons_self, _, List.mem_cons_of_mem _ List.mem_cons_self, rfl⟩
  · exact ⟨_, List.mem_cons_of_mem _ List.mem_cons_self, _, List.mem_cons_self, rfl⟩
  · exact ⟨_, List.mem_cons_of_mem _ List.mem_cons_self, _, List.mem_cons_of_mem _ List.mem_cons_self, rfl⟩

end GS
