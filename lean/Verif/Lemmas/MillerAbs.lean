import Mathlib.Tactic.Ring
import Mathlib.Algebra.Module.Basic

/-!
# Miller's loop over an abstract group

The loop of `multi_miller_loop` with the value of the line through `A` and `B` replaced by an abstract `γ A B`, and what it computes if `γ` is a symmetric
cocycle.
-/

namespace GS

/-- A number from bits, most significant first. -/
def fromBits : Nat → List Bool → Nat
  | n, [] => n
  | n, i :: l => fromBits (if i then 2 * n + 1 else 2 * n) l

variable {A G : Type} [AddCommGroup A] [CommMonoid G]

/-- Miller's loop: the value of the double is squared and multiplied by `γ R R`; for a set bit, by `γ R Q`. -/
def absLoop (γ : A → A → G) (Q : A) : List Bool → A → G → G
  | [], _, t => t
  | i :: l, R, t =>
    let t' := t * t * γ R R
    if i then absLoop γ Q l (R + R + Q) (t' * γ (R + R) Q) else absLoop γ Q l (R + R) t'

theorem four_term {γ : A → A → G} (hs : ∀ a b, γ a b = γ b a) (hc : ∀ a b c, γ a b * γ (a + b) c = γ b c * γ a (b + c)) (a b c d : A) :
    γ (a + b) (c + d) * γ a b * γ c d = γ a c * γ b d * γ (a + c) (b + d) := by
  have h1 := hc a b (c + d)
  have h2 := hc b c d
  have h3 := hc a (b + c) d
  have h4 := hc a c b
  have h5 := hc (a + c) b d
  calc γ (a + b) (c + d) * γ a b * γ c d = (γ a b * γ (a + b) (c + d)) * γ c d := by rw [mul_comm (γ (a + b) _)]
    _ = γ b (c + d) * γ a (b + (c + d)) * γ c d := by rw [h1]
    _ = γ c d * γ b (c + d) * γ a (b + (c + d)) := by rw [mul_right_comm, mul_comm (γ b (c + d))]
    _ = γ b c * γ (b + c) d * γ a (b + c + d) := by rw [← h2, add_assoc]
    _ = γ b c * (γ (b + c) d * γ a (b + c + d)) := mul_assoc _ _ _
    _ = γ b c * (γ a (b + c) * γ (a + (b + c)) d) := by rw [h3]
    _ = γ c b * γ a (c + b) * γ (a + (b + c)) d := by rw [hs b c, add_comm b c, mul_assoc]
    _ = γ a c * γ (a + c) b * γ (a + c + b) d := by rw [← h4, add_assoc a c b, add_comm b c]
    _ = γ a c * (γ b d * γ (a + c) (b + d)) := by rw [mul_assoc, h5]
    _ = _ := by rw [mul_assoc]

/-- The loop is linear in `Q`, up to values of `γ`. -/
theorem absLoop_add {γ : A → A → G} (hs : ∀ a b, γ a b = γ b a) (hc : ∀ a b c, γ a b * γ (a + b) c = γ b c * γ a (b + c)) (Q₁ Q₂ : A) (l : List Bool) :
    ∀ (n : Nat) (t₁ t₂ t₃ : G), t₃ * γ Q₁ Q₂ ^ n = t₁ * t₂ * γ (n • Q₁) (n • Q₂) →
      absLoop γ (Q₁ + Q₂) l (n • (Q₁ + Q₂)) t₃ * γ Q₁ Q₂ ^ fromBits n l =
        absLoop γ Q₁ l (n • Q₁) t₁ * absLoop γ Q₂ l (n • Q₂) t₂ * γ (fromBits n l • Q₁) (fromBits n l • Q₂) := by
  induction l with
  | nil => intro n t₁ t₂ t₃ h; exact h
  | cons i l ih =>
    intro n t₁ t₂ t₃ h
    have h2 : ∀ Q : A, n • Q + n • Q = (2 * n) • Q := fun Q ↦ by rw [two_mul, add_smul]
    have hd : t₃ * t₃ * γ (n • (Q₁ + Q₂)) (n • (Q₁ + Q₂)) * γ Q₁ Q₂ ^ (2 * n) =
        (t₁ * t₁ * γ (n • Q₁) (n • Q₁)) * (t₂ * t₂ * γ (n • Q₂) (n • Q₂)) * γ ((2 * n) • Q₁) ((2 * n) • Q₂) := by
      rw [← h2, ← h2, smul_add]
      have := four_term hs hc (n • Q₁) (n • Q₂) (n • Q₁) (n • Q₂)
      calc _ = (t₃ * γ Q₁ Q₂ ^ n) * (t₃ * γ Q₁ Q₂ ^ n) * γ (n • Q₁ + n • Q₂) (n • Q₁ + n • Q₂) := by
            rw [two_mul, pow_add]; ac_rfl
        _ = t₁ * t₂ * t₁ * t₂ * (γ (n • Q₁ + n • Q₂) (n • Q₁ + n • Q₂) * γ (n • Q₁) (n • Q₂) * γ (n • Q₁) (n • Q₂)) := by rw [h]; ac_rfl
        _ = _ := by rw [this]; ac_rfl
    cases i with
    | false => simpa only [absLoop, fromBits, h2, Bool.false_eq_true, if_false] using ih (2 * n) _ _ _ hd
    | true =>
      have h3 : ∀ Q : A, (2 * n) • Q + Q = (2 * n + 1) • Q := fun Q ↦ by rw [add_smul, one_smul]
      have ha : t₃ * t₃ * γ (n • (Q₁ + Q₂)) (n • (Q₁ + Q₂)) * γ ((2 * n) • (Q₁ + Q₂)) (Q₁ + Q₂) * γ Q₁ Q₂ ^ (2 * n + 1) =
          (t₁ * t₁ * γ (n • Q₁) (n • Q₁) * γ ((2 * n) • Q₁) Q₁) * (t₂ * t₂ * γ (n • Q₂) (n • Q₂) * γ ((2 * n) • Q₂) Q₂) *
            γ ((2 * n + 1) • Q₁) ((2 * n + 1) • Q₂) := by
        have := four_term hs hc ((2 * n) • Q₁) ((2 * n) • Q₂) Q₁ Q₂
        rw [← h3, ← h3, smul_add (2 * n)]
        calc _ = (t₃ * t₃ * γ (n • (Q₁ + Q₂)) (n • (Q₁ + Q₂)) * γ Q₁ Q₂ ^ (2 * n)) * (γ ((2 * n) • Q₁ + (2 * n) • Q₂) (Q₁ + Q₂) * γ Q₁ Q₂) := by
              rw [pow_succ]; ac_rfl
          _ = (t₁ * t₁ * γ (n • Q₁) (n • Q₁)) * (t₂ * t₂ * γ (n • Q₂) (n • Q₂)) *
              (γ ((2 * n) • Q₁ + (2 * n) • Q₂) (Q₁ + Q₂) * γ ((2 * n) • Q₁) ((2 * n) • Q₂) * γ Q₁ Q₂) := by rw [hd]; ac_rfl
          _ = _ := by rw [this]; ac_rfl
      simpa only [absLoop, fromBits, h2, h3, if_true] using ih (2 * n + 1) _ _ _ ha

/-- The product of the loops for `γ₁` and `γ₂` is the loop for `γ₃`, if `γ₁ γ₂ / γ₃` is the coboundary of `δ`, up to values of `δ`. -/
theorem absLoop_mul {γ₁ γ₂ γ₃ : A → A → G} {δ : A → G} (Q : A) (hd : ∀ n m : Nat, γ₁ (n • Q) (m • Q) * γ₂ (n • Q) (m • Q) * δ (n • Q + m • Q) = γ₃ (n • Q) (m • Q) * δ (n • Q) * δ (m • Q)) (l : List Bool) :
    ∀ (n : Nat) (t₁ t₂ t₃ : G), t₁ * t₂ * δ (n • Q) = t₃ * δ Q ^ n →
      absLoop γ₁ Q l (n • Q) t₁ * absLoop γ₂ Q l (n • Q) t₂ * δ (fromBits n l • Q) = absLoop γ₃ Q l (n • Q) t₃ * δ Q ^ fromBits n l := by
  induction l with
  | nil => intro n t₁ t₂ t₃ h; exact h
  | cons i l ih =>
    intro n t₁ t₂ t₃ h
    have h2 : n • Q + n • Q = (2 * n) • Q := by rw [two_mul, add_smul]
    have hD : (t₁ * t₁ * γ₁ (n • Q) (n • Q)) * (t₂ * t₂ * γ₂ (n • Q) (n • Q)) * δ ((2 * n) • Q) = t₃ * t₃ * γ₃ (n • Q) (n • Q) * δ Q ^ (2 * n) := by
      have := hd n n
      rw [← h2]
      calc _ = t₁ * t₁ * t₂ * t₂ * (γ₁ (n • Q) (n • Q) * γ₂ (n • Q) (n • Q) * δ (n • Q + n • Q)) := by ac_rfl
        _ = (t₁ * t₂ * δ (n • Q)) * (t₁ * t₂ * δ (n • Q)) * γ₃ (n • Q) (n • Q) := by rw [this]; ac_rfl
        _ = _ := by rw [h, two_mul, pow_add]; ac_rfl
    cases i with
    | false => simpa only [absLoop, fromBits, h2, Bool.false_eq_true, if_false] using ih (2 * n) _ _ _ hD
    | true =>
      have h3 : (2 * n) • Q + Q = (2 * n + 1) • Q := by rw [add_smul, one_smul]
      have hA : (t₁ * t₁ * γ₁ (n • Q) (n • Q) * γ₁ ((2 * n) • Q) Q) * (t₂ * t₂ * γ₂ (n • Q) (n • Q) * γ₂ ((2 * n) • Q) Q) * δ ((2 * n + 1) • Q) =
          t₃ * t₃ * γ₃ (n • Q) (n • Q) * γ₃ ((2 * n) • Q) Q * δ Q ^ (2 * n + 1) := by
        have := hd (2 * n) 1
        rw [one_smul] at this
        rw [← h3]
        calc _ = (t₁ * t₁ * γ₁ (n • Q) (n • Q)) * (t₂ * t₂ * γ₂ (n • Q) (n • Q)) * (γ₁ ((2 * n) • Q) Q * γ₂ ((2 * n) • Q) Q * δ ((2 * n) • Q + Q)) := by
              ac_rfl
          _ = ((t₁ * t₁ * γ₁ (n • Q) (n • Q)) * (t₂ * t₂ * γ₂ (n • Q) (n • Q)) * δ ((2 * n) • Q)) * γ₃ ((2 * n) • Q) Q * δ Q := by rw [this]; ac_rfl
          _ = _ := by rw [hD, pow_succ]; ac_rfl
      simpa only [absLoop, fromBits, h2, h3, if_true] using ih (2 * n + 1) _ _ _ hA

end GS
