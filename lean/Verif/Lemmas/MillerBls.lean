import Verif.Lemmas.AteBls

/-! # Miller's loop, on the points -/

open Polynomial

namespace GS
open WeierstrassCurve.Affine
variable {K : Type} [Field K] [DecidableEq K] [Fintype K] [Fact (∀ r : K, r ^ 2 ≠ -1 + 0 * r)] [Fact (Irreducible (X ^ 3 - C (xiFq6 K)))]
  [Fact (∀ b : Fq6 K, b ^ 2 ≠ xiFq12 K + 0 * b)]

/-- The homogeneous coordinates are coordinates of the point. -/
def G2Hom.Of (R : G2Hom K) : (cubic (⟨4, 4⟩ : Fq2 K)).Point → Prop
  | .zero => False
  | .some x y _ => R.z ≠ 0 ∧ R.x = x * R.z ∧ R.y = y * R.z

/-- The value of a line is that of the line through the images of two points, up to a factor. -/
def LineOf (c : EllCoeff K) (A B : (cubic (⟨4, 4⟩ : Fq2 K)).Point) : Prop :=
  ∃ d : Fq2 K, d ≠ 0 ∧ ∀ x y, ellValue c x y = inj2 K d * rootW K ^ 3 * lineAt (up2 K A) (up2 K B) (inj1 K x) (inj1 K y)

theorem line_up2 {x₁ y₁ x₂ y₂ : Fq2 K} (h₁ : (cubic (⟨4, 4⟩ : Fq2 K)).Nonsingular x₁ y₁) (h₂ : (cubic (⟨4, 4⟩ : Fq2 K)).Nonsingular x₂ y₂)
    (h : ¬(x₁ = x₂ ∧ y₁ = -y₂)) {c : EllCoeff K} {d : Fq2 K}
    (e1 : c.2.1 = -(d * (cubic (⟨4, 4⟩ : Fq2 K)).slope x₁ x₂ y₁ y₂)) (e2 : c.2.2 = d)
    (e0 : c.1 = d * ((cubic (⟨4, 4⟩ : Fq2 K)).slope x₁ x₂ y₁ y₂ * x₁ - y₁)) (x y : K) :
    ellValue c x y = inj2 K d * rootW K ^ 3 * lineAt (up2 K (.some x₁ y₁ h₁)) (up2 K (.some x₂ y₂ h₂)) (inj1 K x) (inj1 K y) := by
  have hw := rootW_ne (K := K)
  have hxy : ¬(x₁ = x₂ ∧ y₁ = (cubic (⟨4, 4⟩ : Fq2 K)).negY x₂ y₂) := by rwa [cubic_negY]
  obtain ⟨k₁, f₁⟩ := up2_some h₁
  obtain ⟨k₂, f₂⟩ := up2_some h₂
  have hxy' : ¬((rootW K)⁻¹ ^ 2 * inj2 K x₁ = (rootW K)⁻¹ ^ 2 * inj2 K x₂ ∧
      (rootW K)⁻¹ ^ 3 * inj2 K y₁ = (cubic (4 : Fq12 K)).negY ((rootW K)⁻¹ ^ 2 * inj2 K x₂) ((rootW K)⁻¹ ^ 3 * inj2 K y₂)) := by
    rintro ⟨hx, hy⟩
    apply h
    refine ⟨(inj2 K).injective (mul_left_cancel₀ (pow_ne_zero 2 (inv_ne_zero hw)) hx), (inj2 K).injective (mul_left_cancel₀ (pow_ne_zero 3 (inv_ne_zero hw)) ?_)⟩
    rw [hy, cubic_negY, map_neg, mul_neg]
  rw [f₁, f₂, lineAt_real hxy', slope_twist (inj2 K) (rootW K)⁻¹ (inv_ne_zero hw) ⟨4, 4⟩ hxy, ellValue, e0, e1, e2]
  generalize (cubic (⟨4, 4⟩ : Fq2 K)).slope x₁ x₂ y₁ y₂ = s
  simp only [map_neg, map_mul, map_sub]
  field_simp
  ring

theorem half_smul (h2 : (2 : K) ≠ 0) (a : Fq2 K) : 2 * ((2⁻¹ : K) • a) = a := by
  have : (2 : Fq2 K) = algebraMap K (Fq2 K) 2 := (map_ofNat _ 2).symm
  rw [this, ← Algebra.smul_def, smul_smul, mul_inv_cancel₀ h2, one_smul]

theorem two_ne2 (h2 : (2 : K) ≠ 0) : (2 : Fq2 K) ≠ 0 := fun h => h2 ((algebraMap K (Fq2 K)).injective (by rw [map_ofNat, map_zero, h]))

theorem G2Hom.double_of (h2 : (2 : K) ≠ 0) {R : G2Hom K} {A : (cubic (⟨4, 4⟩ : Fq2 K)).Point} (hR : R.Of A) (hA : A + A ≠ 0) :
    R.double.2.Of (A + A) ∧ LineOf R.double.1 A A := by
  have h22 := two_ne2 h2
  rcases A with _ | ⟨x, y, h⟩
  · exact hR.elim
  obtain ⟨hz, hx, hy⟩ := hR
  have heq := ((cubic_nonsingular _ _ _).mp h).1
  have hy0 : y ≠ 0 := by
    rintro rfl
    exact hA (Point.add_of_Y_eq rfl (by rw [cubic_negY, neg_zero]))
  have hne : y ≠ (cubic (⟨4, 4⟩ : Fq2 K)).negY x y := by
    rw [cubic_negY]
    intro e
    apply mul_ne_zero h22 hy0
    linear_combination e
  have hs : (cubic (⟨4, 4⟩ : Fq2 K)).slope x x y y = 3 * x ^ 2 / (2 * y) := by
    rw [slope_of_Y_ne rfl hne, cubic_negY]
    simp only [cubic, mul_zero, zero_mul, add_zero, sub_zero]
    rw [show y - -y = 2 * y by ring]
  constructor
  · rw [Point.add_self_of_Y_ne hne]
    have a1 := half_smul h2 (R.x * R.y)
    have a2 := half_smul h2 (R.y * R.y + (⟨4, 4⟩ * (R.z * R.z + R.z * R.z + R.z * R.z) + ⟨4, 4⟩ * (R.z * R.z + R.z * R.z + R.z * R.z) + ⟨4, 4⟩ * (R.z * R.z + R.z * R.z + R.z * R.z)))
    simp only [G2Hom.Of, G2Hom.double, addY, negAddY, addX, cubic_negY, hs]
    generalize (2⁻¹ : K) • (R.x * R.y) = a at *
    generalize (2⁻¹ : K) • (R.y * R.y + _) = g at *
    generalize (⟨4, 4⟩ : Fq2 K) = b at *
    rw [hx, hy] at a1
    rw [hy] at a2
    rw [hy]
    generalize R.z = z at *
    simp only [cubic, zero_mul, add_zero, sub_zero]
    have ea : a = x * y * z ^ 2 / 2 := by rw [eq_div_iff h22]; linear_combination a1
    have eg : g = (y ^ 2 * z ^ 2 + 9 * b * z ^ 2) / 2 := by rw [eq_div_iff h22]; linear_combination a2
    have eb : b = y ^ 2 - x ^ 3 := by linear_combination -heq
    rw [ea, eg, eb]
    refine ⟨?_, ?_, ?_⟩
    · rw [show (y * z) * (y * z) * ((y * z + z) * (y * z + z) - (y * z * (y * z) + z * z)) = 2 * y ^ 3 * z ^ 4 by ring]
      exact mul_ne_zero (mul_ne_zero h22 (pow_ne_zero _ hy0)) (pow_ne_zero _ hz)
    · field_simp
      ring
    · field_simp
      ring
  · refine ⟨-(2 * y * R.z ^ 2), neg_ne_zero.mpr (mul_ne_zero (mul_ne_zero h22 hy0) (pow_ne_zero _ hz)), fun px py => ?_⟩
    apply line_up2 h h (fun e => hne (by rw [cubic_negY]; exact e.2))
    · rw [hs]
      simp only [G2Hom.double]
      rw [hx]
      field_simp
      ring
    · simp only [G2Hom.double]
      rw [hy]
      ring
    · rw [hs]
      simp only [G2Hom.double]
      rw [hy]
      generalize (⟨4, 4⟩ : Fq2 K) = b at *
      have eb : b = y ^ 2 - x ^ 3 := by linear_combination -heq
      rw [eb]
      field_simp
      ring

theorem G2Hom.add_of {R : G2Hom K} {A : (cubic (⟨4, 4⟩ : Fq2 K)).Point} {qx qy : Fq2 K} {h : (cubic (⟨4, 4⟩ : Fq2 K)).Nonsingular qx qy} (hR : R.Of A)
    (h1 : A ≠ .some qx qy h) (h2 : A + .some qx qy h ≠ 0) : (R.add qx qy).2.Of (A + .some qx qy h) ∧ LineOf (R.add qx qy).1 A (.some qx qy h) := by
  rcases A with _ | ⟨x, y, k⟩
  · exact hR.elim
  obtain ⟨hz, hx, hy⟩ := hR
  have hne : x ≠ qx := by
    rintro rfl
    by_cases e : y = (cubic (⟨4, 4⟩ : Fq2 K)).negY x qy
    · exact h2 (Point.add_of_Y_eq rfl e)
    · exact h1 (point_eq _ rfl (Y_eq_of_Y_ne k.1 h.1 rfl e))
  have hs : (cubic (⟨4, 4⟩ : Fq2 K)).slope x qx y qy = (y - qy) / (x - qx) := slope_of_X_ne hne
  have hd : x - qx ≠ 0 := sub_ne_zero.mpr hne
  constructor
  · rw [Point.add_some (fun e => hne e.1)]
    simp only [G2Hom.Of, G2Hom.add, addY, negAddY, addX, cubic_negY, hs]
    rw [hx, hy]
    generalize R.z = z at *
    simp only [cubic, zero_mul, add_zero, sub_zero]
    refine ⟨?_, ?_, ?_⟩
    · rw [show z * ((x * z - qx * z) * ((x * z - qx * z) * (x * z - qx * z))) = z ^ 4 * (x - qx) ^ 3 by ring]
      exact mul_ne_zero (pow_ne_zero _ hz) (pow_ne_zero _ hd)
    · field_simp
      ring
    · field_simp
      ring
  · refine ⟨(x - qx) * R.z, mul_ne_zero hd hz, fun px py => ?_⟩
    apply line_up2 k h (fun e => hne e.1)
    · rw [hs]
      simp only [G2Hom.add]
      rw [hy]
      field_simp
    · simp only [G2Hom.add]
      rw [hx]
      ring
    · rw [hs]
      simp only [G2Hom.add]
      rw [hx, hy]
      field_simp
      ring

theorem le_fromBits (l : List Bool) : ∀ n, n ≤ fromBits n l := by
  induction l with
  | nil => intro n; exact le_rfl
  | cons i l ih =>
    intro n
    rw [fromBits]
    refine le_trans ?_ (ih _)
    split <;> omega

variable (hc : Fintype.card K = p381)
include hc

theorem line_dies {c : EllCoeff K} {A B : (cubic (⟨4, 4⟩ : Fq2 K)).Point} (h : LineOf c A B) (x y : K) :
    ellValue c x y ^ finalExp = lineAt (up2 K A) (up2 K B) (inj1 K x) (inj1 K y) ^ finalExp := by
  obtain ⟨d, hd, e⟩ := h
  have h1 : inj2 K d ^ finalExp = 1 := fq6_dies hc (a := algebraMap (Fq2 K) (Fq6 K) d) (fun h0 => hd ((algebraMap (Fq2 K) (Fq6 K)).injective (by rw [h0, map_zero])))
  rw [e, mul_pow, mul_pow, h1, one_mul, ← pow_mul, mul_comm 3, pow_mul, w_dies hc, one_pow, one_mul]

theorem small_multiple {Q : Tor2 K} (hQ : Q ≠ 0) {n : Nat} (h0 : n ≠ 0) (hn : n < r381) : n • Q ≠ 0 := by
  intro h
  have hr : r381 • Q = 0 := Subtype.ext Q.2
  have : addOrderOf Q ∣ Nat.gcd n r381 := Nat.dvd_gcd (addOrderOf_dvd_of_nsmul_eq_zero h) (addOrderOf_dvd_of_nsmul_eq_zero hr)
  rw [Nat.Coprime.gcd_eq_one (Nat.Coprime.symm ((Nat.Prime.coprime_iff_not_dvd r381_prime).mpr fun h => absurd (Nat.le_of_dvd (Nat.pos_of_ne_zero h0) h) (by omega)))] at this
  exact hQ (AddMonoid.addOrderOf_eq_one_iff.mp (Nat.dvd_one.mp this))

/-- The loop of the code, after the final exponentiation. -/
theorem single_eq {x y : K} {h : (cubic (4 : K)).Nonsingular x y} (hP : (.some x y h : (cubic (4 : K)).Point) ∈ Tor1 K)
    {qx qy : Fq2 K} {k : (cubic (⟨4, 4⟩ : Fq2 K)).Nonsingular qx qy} (hQ : (.some qx qy k : (cubic (⟨4, 4⟩ : Fq2 K)).Point) ∈ Tor2 K) (l : List Bool) :
    ∀ (n : Nat) (R : G2Hom K) (f : Fq12 K), n ≠ 0 → fromBits n l < r381 → R.Of (n • (⟨_, hQ⟩ : Tor2 K)).1 →
      single x y qx qy l R f ^ finalExp = absLoop ((blsAte hc).γ ⟨_, hP⟩) (⟨_, hQ⟩ : Tor2 K) l (n • ⟨_, hQ⟩) (f ^ finalExp) := by
  have h2 := p381_two (fq_zero hc)
  have hγ (A B : Tor2 K) : (blsAte hc).γ ⟨_, hP⟩ A B = lineAt (up2 K A.1) (up2 K B.1) (inj1 K x) (inj1 K y) ^ finalExp := by
    obtain ⟨h', e⟩ := up1_some h
    show lineOn (up2 K A.1) (up2 K B.1) (up1 K (.some x y h)) ^ finalExp = _
    rw [e]
    rfl
  have hQ0 : (⟨_, hQ⟩ : Tor2 K) ≠ 0 := fun h => by
    have := congrArg Subtype.val h
    cases this
  induction l with
  | nil => intro n R f _ _ _; rfl
  | cons i l ih =>
    intro n R f hn hl hR
    generalize hq : (⟨_, hQ⟩ : Tor2 K) = q at *
    have hdn : n • q + n • q = (2 * n) • q := by rw [two_mul, add_smul]
    have h2n : 2 * n < r381 := by
      refine lt_of_le_of_lt ?_ hl
      rw [fromBits]
      refine le_trans ?_ (le_fromBits l _)
      split <;> omega
    have hne : (n • q).1 + (n • q).1 ≠ 0 := fun h0 => small_multiple hc hQ0 (n := 2 * n) (by omega) h2n (by rw [← hdn]; exact Subtype.ext h0)
    obtain ⟨d1, d2⟩ := G2Hom.double_of h2 hR hne
    have hf : (f * f * ellValue R.double.1 x y) ^ finalExp = f ^ finalExp * f ^ finalExp * (blsAte hc).γ ⟨_, hP⟩ (n • q) (n • q) := by
      rw [mul_pow, mul_pow, line_dies hc d2, hγ]
    have hd1 : R.double.2.Of ((2 * n) • q).1 := by rw [← hdn]; exact d1
    cases i with
    | false =>
      simp only [single, absLoop, Bool.false_eq_true, if_false, hdn]
      rw [← hf]
      exact ih (2 * n) _ _ (by omega) (by simpa [fromBits] using hl) hd1
    | true =>
      have h3n : 2 * n + 1 < r381 := lt_of_le_of_lt (le_fromBits l _) (by simpa [fromBits] using hl)
      have han : (2 * n) • q + q = (2 * n + 1) • q := by rw [add_smul, one_smul]
      have hq1 : q.1 = .some qx qy k := by rw [← hq]
      have ha1 : ((2 * n) • q).1 ≠ .some qx qy k := by
        rw [← hq1]
        intro h0
        have h0' : (2 * n) • q = q := Subtype.ext h0
        apply small_multiple hc hQ0 (n := 2 * n - 1) (by omega) (by omega)
        have : (2 * n - 1) • q + q = 0 + q := by
          rw [← succ_nsmul, show 2 * n - 1 + 1 = 2 * n by omega, h0', zero_add]
        exact add_right_cancel this
      have ha2 : ((2 * n) • q).1 + .some qx qy k ≠ 0 := by
        rw [← hq1]
        intro h0
        exact small_multiple hc hQ0 (n := 2 * n + 1) (by omega) h3n (by rw [← han]; exact Subtype.ext h0)
      obtain ⟨a1, a2⟩ := G2Hom.add_of hd1 ha1 ha2
      have hf' : (f * f * ellValue R.double.1 x y * ellValue (R.double.2.add qx qy).1 x y) ^ finalExp =
          f ^ finalExp * f ^ finalExp * (blsAte hc).γ ⟨_, hP⟩ (n • q) (n • q) * (blsAte hc).γ ⟨_, hP⟩ ((2 * n) • q) q := by
        rw [mul_pow, hf, line_dies hc a2, hγ ((2 * n) • q) q, hq1]
      simp only [single, absLoop, if_true, hdn, han]
      rw [← hf']
      refine ih (2 * n + 1) _ _ (by omega) (by simpa [fromBits] using hl) ?_
      rw [← han]
      show (R.double.2.add qx qy).2.Of (((2 * n) • q).1 + q.1)
      rw [hq1]
      exact a1

/-- The value of the loop, after the final exponentiation. -/
noncomputable def reduced (P : Tor1 K) (Q : Tor2 K) : Fq12 K := millerValue (coordsOf P.1) (coordsOf Q.1) ^ finalExp

omit hc in
theorem reduced_zero_left (Q : Tor2 K) : reduced 0 Q = (1 : Fq12 K) := by
  rw [reduced, millerValue, if_pos, one_pow]
  rfl

omit hc in
theorem reduced_zero_right (P : Tor1 K) : reduced P 0 = (1 : Fq12 K) := by
  rw [reduced, millerValue, if_pos, one_pow]
  exact Bool.or_true _

theorem reduced_eq (P : Tor1 K) (hP : P ≠ 0) (Q : Tor2 K) : reduced P Q = (blsAte hc).t P Q := by
  by_cases hQ : Q = 0
  · rw [hQ, reduced_zero_right, (blsAte hc).t_zero_right hP]
  obtain ⟨_ | ⟨x, y, h⟩, hp⟩ := P
  · exact absurd rfl hP
  obtain ⟨_ | ⟨qx, qy, k⟩, hq⟩ := Q
  · exact absurd rfl hQ
  have := single_eq hc hp hq loopBits 1 ⟨qx, qy, 1⟩ 1 one_ne_zero (by decide +kernel) (by
    rw [one_smul]
    exact ⟨one_ne_zero, (mul_one _).symm, (mul_one _).symm⟩)
  rw [one_smul, one_pow] at this
  rw [reduced, millerValue, if_neg (by simp [coordsOf]), Ate.t]
  exact this

theorem reduced_add_right (P : Tor1 K) (A B : Tor2 K) : reduced P (A + B) = reduced P A * reduced P B := by
  by_cases hP : P = 0
  · rw [hP, reduced_zero_left, reduced_zero_left, reduced_zero_left, mul_one]
  · rw [reduced_eq hc P hP, reduced_eq hc P hP, reduced_eq hc P hP, (blsAte hc).t_add_right hP]

theorem reduced_add_left (P Q : Tor1 K) (A : Tor2 K) : reduced (P + Q) A = reduced P A * reduced Q A := by
  by_cases hP : P = 0
  · rw [hP, reduced_zero_left, zero_add, one_mul]
  by_cases hQ : Q = 0
  · rw [hQ, reduced_zero_left, add_zero, mul_one]
  by_cases hPQ : P + Q = 0
  · obtain rfl : Q = -P := (neg_eq_of_add_eq_zero_right hPQ).symm
    rw [hPQ, reduced_zero_left, reduced_eq hc P hP, reduced_eq hc _ hQ, (blsAte hc).t_neg_left hP]
  · rw [reduced_eq hc P hP, reduced_eq hc Q hQ, reduced_eq hc _ hPQ, (blsAte hc).t_add_left' hP hQ hPQ]

theorem reduced_ne (P : Tor1 K) (Q : Tor2 K) : reduced P Q ≠ (0 : Fq12 K) := by
  intro h0
  have h := reduced_add_right hc P Q (-Q)
  rw [add_neg_cancel, reduced_zero_right, h0, zero_mul] at h
  exact one_ne_zero h

end GS
