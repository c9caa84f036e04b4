import Verif.Lemmas.PairSum

/-! # Which points of the curves make the pairing panic -/

set_option linter.unusedSectionVars false

open Polynomial

namespace GS
open WeierstrassCurve.Affine

/-- Every prefix of the parameter that the loop reaches is prime to the order of the curve, up to 13. -/
def loopOk (N : Nat) : Nat → List Bool → Bool
  | _, [] => true
  | n, i :: l => if i then Nat.gcd (2 * n - 1) N == 1 && 13 % Nat.gcd (2 * n + 1) N == 0 && loopOk N (2 * n + 1) l else loopOk N (2 * n) l

theorem loop_ok : loopOk (r381 * cofactor2) 1 loopBits = true ∧ Nat.gcd 2 (r381 * cofactor2) = 1 ∧ Nat.gcd 3 (r381 * cofactor2) = 1 ∧
    Nat.gcd 2 (r381 * cofactor1) = 1 ∧ 13 ∣ r381 * cofactor2 := by decide +kernel

theorem loop_start : ∃ l, loopBits = true :: false :: true :: false :: false :: true :: false :: l := ⟨_, rfl⟩

theorem killed_gcd {A : Type} [AddCommGroup A] {N m : Nat} (hN : Nat.card A = N) {q : A} (h : m • q = 0) : Nat.gcd m N • q = 0 := by
  have h1 := addOrderOf_dvd_of_nsmul_eq_zero h
  have h2 := addOrderOf_dvd_natCard q
  rw [hN] at h2
  exact addOrderOf_dvd_iff_nsmul_eq_zero.mp (Nat.dvd_gcd h1 h2)

section
variable {K : Type} [Field K] [DecidableEq K] [Fintype K] [Fact (∀ r : K, r ^ 2 ≠ -1 + 0 * r)] [Fact (Irreducible (X ^ 3 - C (xiFq6 K)))]
  [Fact (∀ b : Fq6 K, b ^ 2 ≠ xiFq12 K + 0 * b)]

omit [DecidableEq K] [Fintype K] in
theorem ellValue_zero {c : EllCoeff K} {x y : K} (h : ellValue c x y = 0) : c.1 = 0 ∧ x • c.2.1 = 0 ∧ y • c.2.2 = 0 := by
  have e : ellValue c x y = (⟨mkFq6 (c.1, x • c.2.1, 0), mkFq6 (0, y • c.2.2, 0)⟩ : Fq12 K) := by
    rw [ellValue, ← smul_inj, ← smul_inj, mkFq6_eq, mkFq6_eq, pow_succ (rootW K) 2, sq, rootW_sq]
    simp only [inj2, RingHom.comp_apply, ofFq6, rootW]
    ext <;> simp
  have hz : mkFq6 (0, 0, 0) = (0 : Fq6 K) := by rw [mkFq6_eq]; simp
  rw [e] at h
  have h1 := mkFq6_bijective.1 ((congrArg QuadraticAlgebra.re h).trans hz.symm)
  have h2 := mkFq6_bijective.1 ((congrArg QuadraticAlgebra.im h).trans hz.symm)
  simp only [Prod.mk.injEq] at h1 h2
  exact ⟨h1.1, h1.2.1, h2.2.1⟩

variable (hc : Fintype.card K = p381)
include hc

/-- No point of the first curve has order 2. -/
theorem y_ne {x y : K} (h : (cubic (4 : K)).Nonsingular x y) : y ≠ 0 := by
  rintro rfl
  have h2 : 2 • (.some x 0 h : (cubic (4 : K)).Point) = 0 := by
    rw [two_nsmul]
    exact Point.add_of_Y_eq rfl (by rw [cubic_negY, neg_zero])
  have := killed_gcd (g1_card hc) h2
  rw [loop_ok.2.2.2.1, one_nsmul] at this
  cases this

/-- No point of the second curve has order 2. -/
theorem double_ne {Q : (cubic (⟨4, 4⟩ : Fq2 K)).Point} (h : Q ≠ 0) : Q + Q ≠ 0 := by
  intro h2
  rw [← two_nsmul] at h2
  have := killed_gcd (g2_card' hc) h2
  rw [loop_ok.2.1, one_nsmul] at this
  exact h this

/-- No point of the second curve has the coordinate 0. -/
theorem qx_ne {x y : Fq2 K} (h : (cubic (⟨4, 4⟩ : Fq2 K)).Nonsingular x y) : x ≠ 0 := by
  rintro rfl
  have h2 := two_ne2 (p381_two (fq_zero hc))
  have hy : y ≠ 0 := by
    rintro rfl
    refine double_ne hc (Q := .some 0 0 h) (by intro h; cases h) (Point.add_of_Y_eq rfl (by rw [cubic_negY, neg_zero]))
  have hne : y ≠ (cubic (⟨4, 4⟩ : Fq2 K)).negY 0 y := by
    rw [cubic_negY]
    intro e
    apply mul_ne_zero h2 hy
    linear_combination e
  have hs : (cubic (⟨4, 4⟩ : Fq2 K)).slope 0 0 y y = 0 := by
    rw [slope_of_Y_ne rfl hne]
    simp [cubic]
  have hd : (.some 0 y h : (cubic (⟨4, 4⟩ : Fq2 K)).Point) + .some 0 y h = -.some 0 y h := by
    rw [Point.add_self_of_Y_ne hne, Point.neg_some]
    refine point_eq _ ?_ ?_
    · rw [addX, hs]; simp [cubic]
    · rw [addY, negAddY, addX, hs, cubic_negY, cubic_negY]; simp [cubic]
  have h3 : 3 • (.some 0 y h : (cubic (⟨4, 4⟩ : Fq2 K)).Point) = 0 := by
    rw [succ_nsmul, two_nsmul, hd, neg_add_cancel]
  have := killed_gcd (g2_card' hc) h3
  rw [loop_ok.2.2.1, one_nsmul] at this
  cases this

theorem double_line_ne {x y : K} (h : (cubic (4 : K)).Nonsingular x y) {R : G2Hom K} {A : (cubic (⟨4, 4⟩ : Fq2 K)).Point} (hR : R.Of A) (hA : A ≠ 0) :
    ellValue R.double.1 x y ≠ 0 := by
  intro h0
  rcases A with _ | ⟨ax, ay, k⟩
  · exact hR.elim
  obtain ⟨hz, hx, hy⟩ := hR
  have hay : ay ≠ 0 := by
    rintro rfl
    exact double_ne hc hA (Point.add_of_Y_eq rfl (by rw [cubic_negY, neg_zero]))
  rcases smul_eq_zero.mp (ellValue_zero h0).2.2 with h0 | h0
  · exact y_ne hc h h0
  · have : 2 * ay * R.z ^ 2 = 0 := by
      simp only [G2Hom.double] at h0
      rw [hy] at h0
      linear_combination -h0
    exact mul_ne_zero (mul_ne_zero (two_ne2 (p381_two (fq_zero hc))) hay) (pow_ne_zero 2 hz) this

theorem add_line_ne {x y : K} (h : (cubic (4 : K)).Nonsingular x y) {R : G2Hom K} {A : (cubic (⟨4, 4⟩ : Fq2 K)).Point} (hR : R.Of A)
    {qx qy : Fq2 K} (k : (cubic (⟨4, 4⟩ : Fq2 K)).Nonsingular qx qy) (hA : A ≠ .some qx qy k) : ellValue (R.add qx qy).1 x y ≠ 0 := by
  intro h0
  rcases A with _ | ⟨ax, ay, k'⟩
  · exact hR.elim
  obtain ⟨hz, hx, hy⟩ := hR
  obtain ⟨e0, -, e4⟩ := ellValue_zero h0
  rcases smul_eq_zero.mp e4 with e4 | e4
  · exact y_ne hc h e4
  simp only [G2Hom.add] at e0 e4
  rw [e4, zero_mul, sub_zero] at e0
  rcases mul_eq_zero.mp e0 with e0 | e0
  · rw [hx, ← sub_mul] at e4
    rw [hy, ← sub_mul] at e0
    have a := (mul_eq_zero.mp e4).resolve_right hz
    have b := (mul_eq_zero.mp e0).resolve_right hz
    exact hA (point_eq _ (sub_eq_zero.mp a) (sub_eq_zero.mp b))
  · exact qx_ne hc k e0

theorem single_ne {x y : K} (h : (cubic (4 : K)).Nonsingular x y) {qx qy : Fq2 K} (k : (cubic (⟨4, 4⟩ : Fq2 K)).Nonsingular qx qy)
    (h13 : 13 • (.some qx qy k : (cubic (⟨4, 4⟩ : Fq2 K)).Point) ≠ 0) (l : List Bool) :
    ∀ (n : Nat) (R : G2Hom K) (f : Fq12 K), n ≠ 0 → loopOk (r381 * cofactor2) n l = true → n • (.some qx qy k : (cubic (⟨4, 4⟩ : Fq2 K)).Point) ≠ 0 →
      R.Of (n • (.some qx qy k : (cubic (⟨4, 4⟩ : Fq2 K)).Point)) → f ≠ 0 → single x y qx qy l R f ≠ 0 := by
  have hN := g2_card' (K := K) hc
  generalize r381 * cofactor2 = N at hN
  induction l with
  | nil => intro n R f _ _ _ _ hf; exact hf
  | cons i l ih =>
    intro n R f hn hl h0 hR hf
    have hd := double_ne hc h0
    obtain ⟨hR2, -⟩ := G2Hom.double_of (p381_two (fq_zero hc)) hR hd
    have hf2 := mul_ne_zero (mul_ne_zero hf hf) (double_line_ne hc h hR h0)
    rw [← two_nsmul, ← mul_nsmul'] at hd hR2
    cases i with
    | false =>
      rw [loopOk, if_neg (by simp)] at hl
      rw [single, if_neg (by simp)]
      exact ih (2 * n) _ _ (by omega) hl hd hR2 hf2
    | true =>
      rw [loopOk, if_pos rfl, Bool.and_eq_true, Bool.and_eq_true, beq_iff_eq, beq_iff_eq] at hl
      obtain ⟨⟨g1, g2⟩, hl⟩ := hl
      have n1 : (2 * n) • (.some qx qy k : (cubic (⟨4, 4⟩ : Fq2 K)).Point) ≠ .some qx qy k := by
        intro e
        have e' : (2 * n - 1) • (.some qx qy k : (cubic (⟨4, 4⟩ : Fq2 K)).Point) = 0 := by
          have : 2 * n = (2 * n - 1) + 1 := by omega
          rw [this, succ_nsmul] at e
          exact add_eq_right.mp e
        have := killed_gcd hN e'
        rw [g1, one_nsmul] at this
        cases this
      have n2 : (2 * n + 1) • (.some qx qy k : (cubic (⟨4, 4⟩ : Fq2 K)).Point) ≠ 0 := by
        intro e
        have := killed_gcd hN e
        obtain ⟨c, hc'⟩ := Nat.dvd_of_mod_eq_zero g2
        apply h13
        rw [hc', mul_comm, mul_nsmul', this, nsmul_zero]
      rw [succ_nsmul] at n2
      obtain ⟨hR3, -⟩ := G2Hom.add_of (h := k) hR2 n1 n2
      rw [single, if_pos rfl]
      rw [← succ_nsmul] at n2 hR3
      exact ih (2 * n + 1) _ _ (by omega) hl n2 hR3 (mul_ne_zero hf2 (add_line_ne hc h hR2 k n1))

omit hc in
/-- From the point at infinity, three more steps of the loop lose the value. -/
theorem single_lost {x y : K} {qx qy : Fq2 K} {R : G2Hom K} (hx : R.x = 0) (hz : R.z = 0) (f : Fq12 K) (l : List Bool) :
    single x y qx qy (false :: false :: true :: false :: l) R f = 0 := by
  have d : ∀ S : G2Hom K, S.x = 0 → S.z = 0 → S.double.2.x = 0 ∧ S.double.2.z = 0 := fun S a b => by simp [G2Hom.double, a, b]
  have p : ∀ S : G2Hom K, S.x = 0 → S.z = 0 → (S.add qx qy).2.x = 0 ∧ (S.add qx qy).2.y = 0 ∧ (S.add qx qy).2.z = 0 := fun S a b => by
    simp [G2Hom.add, a, b]
  have e : ∀ S : G2Hom K, S.x = 0 → S.y = 0 → S.z = 0 → ellValue S.double.1 x y = 0 := fun S a b c => by simp [G2Hom.double, ellValue, a, b, c]
  obtain ⟨x1, z1⟩ := d _ hx hz
  obtain ⟨x2, z2⟩ := d _ x1 z1
  obtain ⟨x3, z3⟩ := d _ x2 z2
  obtain ⟨x4, y4, z4⟩ := p _ x3 z3
  rw [single, if_neg (by simp), single, if_neg (by simp), single, if_pos rfl, single, if_neg (by simp), e _ x4 y4 z4, mul_zero, single_zero]

theorem single_13 {x y : K} {qx qy : Fq2 K} (k : (cubic (⟨4, 4⟩ : Fq2 K)).Nonsingular qx qy)
    (h13 : 13 • (.some qx qy k : (cubic (⟨4, 4⟩ : Fq2 K)).Point) = 0) {R : G2Hom K} (hR : R.Of (.some qx qy k)) (f : Fq12 K) (l : List Bool) :
    single x y qx qy (true :: false :: true :: false :: false :: true :: false :: l) R f = 0 := by
  have h2 := p381_two (fq_zero hc)
  generalize hQ : (.some qx qy k : (cubic (⟨4, 4⟩ : Fq2 K)).Point) = Q at h13 hR
  have q0 : Q ≠ 0 := by rw [← hQ]; intro h; cases h
  have small : ∀ n, 13 % n ≠ 0 → Nat.gcd n 13 = 1 → n • Q ≠ 0 := by
    intro n _ hn h
    apply q0
    have h1 := addOrderOf_dvd_of_nsmul_eq_zero h
    have h2 := addOrderOf_dvd_of_nsmul_eq_zero h13
    have := addOrderOf_dvd_iff_nsmul_eq_zero.mp (Nat.dvd_gcd h1 h2)
    rwa [hn, one_nsmul] at this
  have e2 : Q + Q = 2 • Q := (two_nsmul Q).symm
  have e3 : 2 • Q + Q = 3 • Q := (succ_nsmul Q 2).symm
  have e6 : 3 • Q + 3 • Q = 6 • Q := by rw [← add_nsmul]
  have e12 : 6 • Q + 6 • Q = 12 • Q := by rw [← add_nsmul]
  have r2 := (G2Hom.double_of h2 hR (by rw [e2]; exact small 2 (by decide) (by decide))).1
  rw [e2] at r2
  have n2 : 2 • Q ≠ Q := by
    intro h
    rw [two_nsmul] at h
    exact q0 (add_eq_right.mp h)
  have r3 := (G2Hom.add_of (h := k) r2 (by rw [hQ]; exact n2) (by rw [hQ, e3]; exact small 3 (by decide) (by decide))).1
  rw [hQ, e3] at r3
  have r6 := (G2Hom.double_of h2 r3 (by rw [e6]; exact small 6 (by decide) (by decide))).1
  rw [e6] at r6
  have r12 := (G2Hom.double_of h2 r6 (by rw [e12]; exact small 12 (by decide) (by decide))).1
  rw [e12] at r12
  have e : 12 • Q = -Q := eq_neg_of_add_eq_zero_left (by rw [← succ_nsmul]; exact h13)
  rw [e, ← hQ, Point.neg_some] at r12
  obtain ⟨-, hx, -⟩ := r12
  rw [single, if_pos rfl, single, if_neg (by simp), single, if_pos rfl]
  have p : ∀ S : G2Hom K, S.x = qx * S.z → (S.add qx qy).2.x = 0 ∧ (S.add qx qy).2.z = 0 := fun S a => by simp [G2Hom.add, a]
  exact single_lost (p _ hx).1 (p _ hx).2 _ l

/-- For points of the curves that are not zero, the pairing fails if, and only if, 13 times the second is zero. -/
theorem miller_curve {P : (cubic (4 : K)).Point} {Q : (cubic (⟨4, 4⟩ : Fq2 K)).Point} (hP : P ≠ 0) (hQ : Q ≠ 0) :
    millerValue (coordsOf P) (coordsOf Q) = 0 ↔ 13 • Q = 0 := by
  rcases P with _ | ⟨x, y, h⟩
  · exact absurd rfl hP
  rcases Q with _ | ⟨qx, qy, k⟩
  · exact absurd rfl hQ
  have hR : (⟨qx, qy, 1⟩ : G2Hom K).Of (.some qx qy k) := ⟨one_ne_zero, (mul_one _).symm, (mul_one _).symm⟩
  rw [millerValue, if_neg (by simp [coordsOf])]
  constructor
  · intro h0
    by_contra h13
    exact single_ne hc h k h13 loopBits 1 _ _ one_ne_zero loop_ok.1 (by rw [one_nsmul]; exact hQ) (by rw [one_nsmul]; exact hR) one_ne_zero h0
  · intro h13
    obtain ⟨l, hl⟩ := loop_start
    rw [hl]
    exact single_13 hc k h13 hR 1 l

theorem arkPairing_curve (P : (cubic (4 : K)).Point) (Q : (cubic (⟨4, 4⟩ : Fq2 K)).Point) :
    arkPairing (coordsOf P) (coordsOf Q) = none ↔ P ≠ 0 ∧ Q ≠ 0 ∧ 13 • Q = 0 := by
  classical
  rw [arkPairing_eq hc]
  have key : millerValue (coordsOf P) (coordsOf Q) = 0 ↔ P ≠ 0 ∧ Q ≠ 0 ∧ 13 • Q = 0 := by
    by_cases hP : P = 0
    · subst hP
      have e : (coordsOf (0 : (cubic (4 : K)).Point)).infinity = true := rfl
      simp [millerValue, e]
    by_cases hQ : Q = 0
    · subst hQ
      have e : (coordsOf (0 : (cubic (⟨4, 4⟩ : Fq2 K)).Point)).infinity = true := rfl
      simp [millerValue, e]
    rw [miller_curve hc hP hQ]
    exact ⟨fun h => ⟨hP, hQ, h⟩, fun h => h.2.2⟩
  rw [← key]
  by_cases h : millerValue (coordsOf P) (coordsOf Q) = 0
  · rw [if_pos h]; exact ⟨fun _ => h, fun _ => rfl⟩
  · rw [if_neg h]; exact iff_of_false (by simp) h

/-- There are such points: 13 divides the order of the second curve. -/
theorem exists_13 : ∃ Q : (cubic (⟨4, 4⟩ : Fq2 K)).Point, Q ≠ 0 ∧ 13 • Q = 0 := by
  have hN := g2_card' (K := K) hc
  have : Finite (cubic (⟨4, 4⟩ : Fq2 K)).Point := Nat.finite_of_card_ne_zero (by rw [hN]; decide +kernel)
  have := Fact.mk (by norm_num : Nat.Prime 13)
  obtain ⟨Q, hQ⟩ := exists_prime_addOrderOf_dvd_card' (G := (cubic (⟨4, 4⟩ : Fq2 K)).Point) 13 (by rw [hN]; exact loop_ok.2.2.2.2)
  refine ⟨Q, ?_, by rw [← hQ, addOrderOf_nsmul_eq_zero]⟩
  rintro rfl
  rw [addOrderOf_zero] at hQ
  omega

end
end GS
