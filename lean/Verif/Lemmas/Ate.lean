import Verif.Lemmas.Tate
import Verif.Lemmas.MillerAbs

/-!
# Miller's loop on a curve is bilinear

For a loop of `n` steps where `n` is minus the eigenvalue of the Frobenius endomorphism on the second group, after a power that removes the values of verticals.
-/

namespace GS
open WeierstrassCurve.Affine

theorem frob_hb {L : Type} [Field L] {b : L} {f : L →+* L} (h : f b = b) : b = 1 ^ 6 * f b := by rw [h, one_pow, one_mul]

/-- What is used of two groups of points and of the exponents. -/
structure Ate {L : Type} [Field L] [DecidableEq L] (b : L) (U V : Type) [AddCommGroup U] [AddCommGroup V] where
  (M p n : Nat)
  four : 4 ∣ M
  e1 : U →+ (cubic b).Point
  e2 : V →+ (cubic b).Point
  inj1 : Function.Injective e1
  odd1 : ∀ P : U, P + P = 0 → P = 0
  vert : ∀ A P, P ≠ 0 → vertOn (e2 A) (e1 P) ^ M = 1
  frob : L →+* L
  frob_pow : ∀ x, frob x = x ^ p
  frob_b : frob b = b
  fixed : ∀ P, twist frob 1 one_ne_zero b (frob_hb frob_b) (e1 P) = e1 P
  eigen : ∀ A, e2 (n • A) = -twist frob 1 one_ne_zero b (frob_hb frob_b) (e2 A)
  unity : ∀ x : L, x ^ M ≠ 0 → (x ^ M) ^ (n + p) = 1
  bits : List Bool
  bits_n : fromBits 1 bits = n

namespace Ate
variable {L : Type} [Field L] [DecidableEq L] {b : L} {U V : Type} [AddCommGroup U] [AddCommGroup V] (S : Ate b U V)

/-- The value of the line through two points of the second group at a point of the first. -/
def γ (P : U) (A B : V) : L := lineOn (S.e2 A) (S.e2 B) (S.e1 P) ^ S.M

/-- The value of the line through two points of the first group at a point of the second. -/
def δ (P Q : U) (A : V) : L := lineOn (S.e1 P) (S.e1 Q) (S.e2 A) ^ S.M

/-- The value of the loop. -/
def t (P : U) (Q : V) : L := absLoop (S.γ P) Q S.bits Q 1

theorem lineOn_frob (A B P : (cubic b).Point) :
    lineOn (twist S.frob 1 one_ne_zero b (frob_hb S.frob_b) A) (twist S.frob 1 one_ne_zero b (frob_hb S.frob_b) B)
      (twist S.frob 1 one_ne_zero b (frob_hb S.frob_b) P) = lineOn A B P ^ S.p := by
  rcases P with _ | ⟨x, y, h⟩
  · exact (one_pow _).symm
  · rw [twist_some]
    obtain ⟨m, e⟩ := lineAt_twist S.frob 1 one_ne_zero b (frob_hb S.frob_b) A B x y
    show lineAt _ _ _ _ = lineAt A B x y ^ S.p
    rw [e, one_pow, one_mul, S.frob_pow]

theorem lineOn_comm (A B P : (cubic b).Point) : lineOn A B P = lineOn B A P := by
  rcases P with _ | ⟨x, y, h⟩
  · rfl
  · exact lineAt_comm A B

theorem γ_comm (P : U) (A B : V) : S.γ P A B = S.γ P B A := by rw [γ, lineOn_comm, γ]

variable {P : U} (hP : P ≠ 0)
include hP

theorem γ_cocycle (A B D : V) : S.γ P A B * S.γ P (A + B) D = S.γ P B D * S.γ P A (B + D) := by
  have h1 := S.vert (A + B) P hP
  have h2 := S.vert (B + D) P hP
  simp only [γ, map_add] at *
  generalize S.e1 P = p at *
  rcases p with _ | ⟨x, y, h⟩
  · rfl
  · exact line_cocycle S.four h.1 h1 h2

theorem γ_ne (A B : V) : S.γ P A B ≠ 0 := by
  have := lineOn_neg_mul S.four (S.vert A P hP) (S.vert B P hP) (by rw [← map_add]; exact S.vert (A + B) P hP)
  intro h
  rw [γ] at h
  rw [h, zero_mul] at this
  exact one_ne_zero this.symm

theorem γ_eigen (A B : V) : S.γ P (S.n • A) (S.n • B) * S.γ P A B ^ S.p = 1 := by
  have e (A : V) : twist S.frob 1 one_ne_zero b (frob_hb S.frob_b) (S.e2 A) = S.e2 (-(S.n • A)) := by rw [map_neg, S.eigen, neg_neg]
  have h := S.lineOn_frob (S.e2 A) (S.e2 B) (S.e1 P)
  rw [S.fixed, e, e] at h
  have hA := S.vert (-(S.n • A)) P hP
  have hB := S.vert (-(S.n • B)) P hP
  have hAB := S.vert (-(S.n • A) + -(S.n • B)) P hP
  rw [map_add] at hAB
  rw [γ, γ, ← pow_mul, mul_comm S.M, pow_mul, ← h, ← neg_neg (S.n • A), ← neg_neg (S.n • B), map_neg S.e2 (-(S.n • A)), map_neg S.e2 (-(S.n • B)), neg_neg, neg_neg]
  generalize S.e2 (-(S.n • A)) = a at *
  generalize S.e2 (-(S.n • B)) = c at *
  generalize S.e1 P = p at *
  rcases p with _ | ⟨x, y, k⟩
  · show (1 : L) ^ _ * 1 ^ _ = 1
    simp
  · exact line_neg S.four ((cubic_nonsingular b x y).mp k).1 hA hB hAB

/-- Linear on the right. -/
theorem t_add_right (A B : V) : S.t P (A + B) = S.t P A * S.t P B := by
  have h := absLoop_add (S.γ_comm P) (S.γ_cocycle hP) A B S.bits 1 1 1 1 (by simp)
  rw [S.bits_n] at h
  simp only [one_smul] at h
  have h1 := S.γ_eigen hP A B
  have h2 := S.unity _ (S.γ_ne hP A B)
  change S.γ P A B ^ (S.n + S.p) = 1 at h2
  rw [pow_add] at h2
  show absLoop _ _ _ _ _ = absLoop _ _ _ _ _ * absLoop _ _ _ _ _
  linear_combination S.γ P A B ^ S.p * h + absLoop (S.γ P) A S.bits A 1 * absLoop (S.γ P) B S.bits B 1 * h1 - absLoop (S.γ P) (A + B) S.bits (A + B) 1 * h2

omit hP in
theorem absLoop_zero {A G : Type} [AddCommGroup A] [CommMonoid G] {γ : A → A → G} (h : γ 0 0 = 1) (l : List Bool) : absLoop γ 0 l 0 1 = 1 := by
  induction l with
  | nil => rfl
  | cons i l ih => cases i <;> simpa [absLoop, h] using ih

theorem t_zero_right : S.t P 0 = 1 := by
  apply absLoop_zero
  rw [γ, map_zero, lineOn_zero_left, ← map_zero S.e2]
  exact S.vert 0 P hP

theorem t_ne (A : V) : S.t P A ≠ 0 := by
  have h := S.t_add_right hP A (-A)
  rw [add_neg_cancel, S.t_zero_right hP] at h
  intro h0
  rw [h0, zero_mul] at h
  exact one_ne_zero h

omit hP in
theorem t_add_left' {P Q : U} (hP : P ≠ 0) (hQ : Q ≠ 0) (hPQ : P + Q ≠ 0) (A : V) : S.t (P + Q) A = S.t P A * S.t Q A := by
  have hne : ∀ P : U, P ≠ 0 → S.e1 P ≠ 0 := fun P hP h => hP (S.inj1 (by rw [h, map_zero]))
  have hv : ∀ A : V, ∀ Y ∈ [S.e1 P, S.e1 Q, S.e1 P + S.e1 Q], vertOn (S.e2 A) Y ^ S.M = 1 := by
    intro A Y hY
    simp only [List.mem_cons, List.not_mem_nil, or_false] at hY
    rcases hY with rfl | rfl | rfl
    · exact S.vert A P hP
    · exact S.vert A Q hQ
    · rw [← map_add]; exact S.vert A _ hPQ
  have hd : ∀ A B : V, S.γ P A B * S.γ Q A B * S.δ P Q (A + B) = S.γ (P + Q) A B * S.δ P Q A * S.δ P Q B := by
    intro A B
    simp only [γ, δ, map_add]
    apply line_exchange S.four (hne P hP) (hne Q hQ) (by rw [← map_add]; exact hne _ hPQ)
    intro X hX
    simp only [List.mem_cons, List.not_mem_nil, or_false] at hX
    rcases hX with rfl | rfl | rfl
    · exact hv A
    · exact hv B
    · rw [← map_add S.e2]; exact hv (A + B)
  have h := absLoop_mul (G := L) (δ := S.δ P Q) A (fun n m => hd _ _) S.bits 1 1 1 1 (by simp)
  rw [S.bits_n] at h
  simp only [one_smul] at h
  have hneg (X : V) : lineOn (S.e1 P) (S.e1 Q) (S.e2 X) ^ S.M * lineOn (S.e1 P) (S.e1 Q) (-S.e2 X) ^ S.M = 1 :=
    lineOn_neg_mul S.four (by rw [vertOn_comm S.four]; exact hv X _ (by simp)) (by rw [vertOn_comm S.four]; exact hv X _ (by simp))
      (by rw [vertOn_comm S.four]; exact hv X _ (by simp))
  have h1 : S.δ P Q (S.n • A) * S.δ P Q A ^ S.p = 1 := by
    have e := S.lineOn_frob (S.e1 P) (S.e1 Q) (S.e2 A)
    rw [S.fixed, S.fixed] at e
    have h2 := hneg (S.n • A)
    rw [S.eigen A, neg_neg, e, ← S.eigen A] at h2
    rw [δ, δ, ← pow_mul, mul_comm S.M, pow_mul]
    exact h2
  have h2 := S.unity (lineOn (S.e1 P) (S.e1 Q) (S.e2 A)) (fun h0 => by have := hneg A; rw [h0, zero_mul] at this; exact one_ne_zero this.symm)
  change S.δ P Q A ^ (S.n + S.p) = 1 at h2
  rw [pow_add] at h2
  show absLoop _ _ _ _ _ = absLoop _ _ _ _ _ * absLoop _ _ _ _ _
  linear_combination -(S.δ P Q A ^ S.p * h) + absLoop (S.γ P) A S.bits A 1 * absLoop (S.γ Q) A S.bits A 1 * h1 - absLoop (S.γ (P + Q)) A S.bits A 1 * h2

theorem t_neg_left (A : V) : S.t P A * S.t (-P) A = 1 := by
  have h2 : P + P ≠ 0 := fun h => hP (S.odd1 P h)
  have h3 := S.t_add_left' hP hP h2 A
  have h4 := S.t_add_left' h2 (neg_ne_zero.mpr hP) (by rwa [add_neg_cancel_right]) A
  rw [add_neg_cancel_right, h3] at h4
  exact mul_left_cancel₀ (S.t_ne hP A) (by rw [mul_one, ← mul_assoc]; exact h4.symm)

end Ate
end GS
