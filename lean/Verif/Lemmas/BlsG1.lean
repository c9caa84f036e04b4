import Verif.Lemmas.Prime381
import Verif.Lemmas.Hasse
import Verif.Lemmas.Twist
import Verif.Lemmas.Eisenstein

/-! # The first group of BLS12-381 -/

set_option linter.unusedSectionVars false

namespace GS
open WeierstrassCurve.Affine

section
variable {K : Type} [Field K] [DecidableEq K]

theorem natCast_ne_zero_of_gcd {p n : Nat} (hp : (p : K) = 0) (h : Nat.gcd n p = 1) : (n : K) ≠ 0 := by
  intro h0
  have := (Nat.isCoprime_iff_coprime.mpr h).map (Int.castRingHom K)
  simp only [eq_intCast, Int.cast_natCast, hp, h0] at this
  exact not_isCoprime_zero_zero this

theorem p381_two (hp : (p381 : K) = 0) : (2 : K) ≠ 0 := by
  have := natCast_ne_zero_of_gcd (n := 2) hp (by decide +kernel)
  exact_mod_cast this

theorem p381_three (hp : (p381 : K) = 0) : (3 : K) ≠ 0 := by
  have := natCast_ne_zero_of_gcd (n := 3) hp (by decide +kernel)
  exact_mod_cast this

theorem cubic_smooth_iff {b : K} (h2 : (2 : K) ≠ 0) (h3 : (3 : K) ≠ 0) (hb : b ≠ 0) : (16 : K) * (4 * (bareCurve b).a ^ 3 + 27 * (bareCurve b).b ^ 2) ≠ 0 := by
  simp only [bareCurve]
  rw [show (16 : K) * (4 * 0 ^ 3 + 27 * b ^ 2) = 2 ^ 4 * (3 ^ 3 * b ^ 2) by ring]
  exact mul_ne_zero (pow_ne_zero _ h2) (mul_ne_zero (pow_ne_zero _ h3) (pow_ne_zero _ hb))

/-- The number of points of `y² = x³ + b`. -/
theorem cubic_card [Fintype K] (hq : Fintype.card K % 3 = 1) {b : K} (h2 : (2 : K) ≠ 0) (h3 : (3 : K) ≠ 0) (hb : b ≠ 0) :
    ∃ m n : ℤ, m ^ 2 + m * n + n ^ 2 = Fintype.card K ∧ (Nat.card (cubic b).Point : ℤ) = Fintype.card K + 1 + (2 * m + n) := by
  obtain ⟨m, n, h1, h4⟩ := card_cubic hq (fun hr => h2 (by
    have := CharP.cast_eq_zero K (ringChar K)
    rw [hr] at this
    exact_mod_cast this)) hb
  refine ⟨m, n, h1, ?_⟩
  have := SWCurve.card_points_of_smooth (cubic_smooth_iff h2 h3 hb)
  have e : Nat.card (cubic b).Point = Fintype.card {a : K × K // a.2 * a.2 = a.1 * a.1 * a.1 + b} + 1 := by
    refine this.trans ?_
    congr 1
    refine Fintype.card_congr (Equiv.subtypeEquivRight fun a => ?_)
    simp [bareCurve]
  rw [e]
  push_cast
  rw [h4]
  ring

instance cubic_finite [Finite K] (b : K) : Finite (cubic b).Point := inferInstanceAs (Finite (bareCurve b).curve.Point)

/-- `n • P`, as computed. -/
theorem SWCurve.computed {E : SWCurve K} (ha : E.a = 0) {α : Type} {o : ModOps α} {ev : α → K} (ho : o.Right ev) (h0 : ∀ a, o.isZero a = true → ev a = 0)
    {x y one : α} (h1 : ev one = 1) (hP : E.curve.Nonsingular (ev x) (ev y)) (l : List Bool) (S : α × α × α) (hS : Jac.run o x y l (x, y, one) = S)
    (hz : ev S.2.2 ≠ 0) : ∃ x' y' h', (bitsNat 1 l) • (.some _ _ hP : E.curve.Point) = .some x' y' h' ∧
      ev S.1 = x' * ev S.2.2 ^ 2 ∧ ev S.2.1 = y' * ev S.2.2 ^ 3 := by
  have hr : JRep E ev (x, y, one) ((1 : Nat) • .some _ _ hP) :=
    ⟨by simp [h1], ev x, ev y, hP, one_nsmul _, by simp [h1], by simp [h1]⟩
  have := hr.run ho h0 ha hP l 1 _ (by rw [hS]; exact hz)
  rw [hS] at this
  obtain ⟨-, x', y', h', e, hx', hy'⟩ := this
  exact ⟨x', y', h', e, hx', hy'⟩

theorem cubic_computed {α : Type} {o : ModOps α} {ev : α → K} (ho : o.Right ev) (h0 : ∀ a, o.isZero a = true → ev a = 0) {b : K} {x y one : α}
    (h1 : ev one = 1) (hP : (cubic b).Nonsingular (ev x) (ev y)) (l : List Bool) (S : α × α × α) (hS : Jac.run o x y l (x, y, one) = S)
    (hz : ev S.2.2 ≠ 0) : ∃ x' y' h', (bitsNat 1 l) • (.some _ _ hP : (cubic b).Point) = .some x' y' h' ∧
      ev S.1 = x' * ev S.2.2 ^ 2 ∧ ev S.2.1 = y' * ev S.2.2 ^ 3 :=
  SWCurve.computed (E := bareCurve b) rfl ho h0 h1 hP l S hS hz

/-- In a group of order `r * h` the elements killed by the prime `r` are the multiples of one of them. -/
theorem killed_multiple {A : Type} [AddCommGroup A] [Finite A] {r h : Nat} [hr : Fact r.Prime] (hh : ¬ r ∣ h) (hA : Nat.card A = r * h) {g : A}
    (hg : r • g = 0) (hg0 : g ≠ 0) {P : A} (hP : r • P = 0) : ∃ k : ℤ, k • g = P := by
  have hc := card_killed hh hA
  have : (⟨P, hP⟩ : (nsmulAddMonoidHom (α := A) r).ker) ∈ AddSubgroup.zmultiples (⟨g, hg⟩ : (nsmulAddMonoidHom (α := A) r).ker) :=
    mem_zmultiples_of_prime_card hc (fun h0 => hg0 (congrArg Subtype.val h0))
  obtain ⟨k, hk⟩ := AddSubgroup.mem_zmultiples_iff.mp this
  exact ⟨k, congrArg Subtype.val hk⟩

/-- The representation of a point. -/
def coordsOf {b : K} : (cubic b).Point → Affine K
  | .zero => Affine.identity
  | .some x y _ => ⟨x, y, false⟩

theorem onOwn_zero (test : ∀ b : K, K → K → (cubic b).Point → Bool) {P : Affine K} (h : P.infinity = true) : onOwn test P = true := by
  rw [onOwn, h, Bool.true_or]

theorem onOwn_some (test : ∀ b : K, K → K → (cubic b).Point → Bool) {b x y : K} (h : (cubic b).Nonsingular x y) :
    onOwn test ⟨x, y, false⟩ = test b x y (.some _ _ h) := by
  have hb : y * y - x * x * x = b := by
    have := ((cubic_nonsingular b x y).mp h).1
    linear_combination this
  subst hb
  rw [onOwn, Bool.false_or, dif_pos h]

theorem sameAs_iff {b x y : K} (P : (cubic b).Point) (h : (cubic b).Nonsingular x y) : sameAs P x y = true ↔ P = .some _ _ h := by
  rcases P with _ | ⟨x', y', h'⟩
  · simp [sameAs]
  · rw [sameAs, decide_eq_true_iff, point_inj]

end

theorem g1_beta : beta1 ^ 2 + beta1 + 1 = p381 * ((beta1 ^ 2 + beta1 + 1) / p381) := by decide +kernel

set_option maxRecDepth 20000 in
theorem g1_run_endo : let S := Jac.run (natOps p381) g1x g1y (bits (blsX * blsX)).tail (g1x, g1y, 1)
    (Nat.gcd S.2.2 p381 = 1 ∧ S.1 % p381 = beta1 * g1x * (S.2.2 * S.2.2) % p381 ∧ (S.2.1 + g1y * (S.2.2 * S.2.2 * S.2.2)) % p381 = 0) ∧
    bitsNat 1 (bits (blsX * blsX)).tail = blsX * blsX := by decide +kernel

theorem r381_eq : r381 + blsX * blsX = blsX * blsX * (blsX * blsX) + 1 := by decide +kernel

theorem g1_card_eq : (r381 : ℤ) * (cofactor1 : ℤ) = p381 + 1 + (blsX - 1) := by decide +kernel

theorem g1_bound : (0 : ℤ) < 2 ^ 192 ∧ 4 * (p381 : ℤ) < (2 ^ 192) ^ 2 ∧ |(blsX : ℤ) - 1| < 2 ^ 192 ∧ 2 * 2 ^ 192 ≤ (r381 : ℤ) ∧ p381 % 3 = 1 ∧
    ¬ r381 ∣ cofactor1 := by
  refine ⟨by decide +kernel, by decide +kernel, ?_, by decide +kernel, by decide +kernel, by decide +kernel⟩
  rw [abs_of_nonneg (by decide +kernel)]
  decide +kernel

instance r381_fact : Fact r381.Prime := ⟨r381_prime⟩
instance p381_fact : Fact p381.Prime := ⟨p381_prime⟩

section
variable {K : Type} [Field K] [DecidableEq K]

theorem beta_root (hp : (p381 : K) = 0) : (beta1 : K) ^ 2 + beta1 + 1 = 0 ∧ (beta1 : K) ≠ 1 := by
  have h : (beta1 : K) ^ 2 + beta1 + 1 = 0 := by
    have := congrArg (Nat.cast (R := K)) g1_beta
    push_cast at this
    rw [this, hp, zero_mul]
  refine ⟨h, fun h1 => p381_three hp ?_⟩
  rw [h1] at h
  linear_combination h

theorem four_ne (hp : (p381 : K) = 0) : (4 : K) ≠ 0 := by
  rw [show (4 : K) = 2 ^ 2 by norm_num]; exact pow_ne_zero _ (p381_two hp)

theorem g1_nonsingular (hp : (p381 : K) = 0) : (cubic (4 : K)).Nonsingular (g1x : K) (g1y : K) := by
  refine cubic_smooth (p381_two hp) (p381_three hp) (four_ne hp) ?_
  have := cast_of_mod hp g1_equation
  push_cast at this
  linear_combination this

/-- The generator of the first group. -/
def g1Point (hp : (p381 : K) = 0) : (cubic (4 : K)).Point := .some _ _ (g1_nonsingular hp)

theorem g1Point_killed (hp : (p381 : K) = 0) : r381 • g1Point hp = 0 := g1_killed hp (bareCurve 4) rfl (g1_nonsingular hp)

theorem g1Point_ne (hp : (p381 : K) = 0) : g1Point hp ≠ 0 := by
  intro h; cases h

theorem g1_card [Fintype K] (hc : Fintype.card K = p381) : Nat.card (cubic (4 : K)).Point = r381 * cofactor1 := by
  have hp : (p381 : K) = 0 := by rw [← hc]; exact FiniteField.cast_card_eq_zero K
  obtain ⟨b1, b2, b3, b4, b5, -⟩ := g1_bound
  obtain ⟨m, n, h1, h2⟩ := cubic_card (hc ▸ b5) (p381_two hp) (p381_three hp) (four_ne hp)
  have ho : addOrderOf (g1Point hp) = r381 := addOrderOf_eq_prime (g1Point_killed hp) (g1Point_ne hp)
  obtain ⟨k, hk⟩ : r381 ∣ Nat.card (cubic (4 : K)).Point := ho ▸ addOrderOf_dvd_natCard _
  rw [hk, hc] at h2
  have : (k : ℤ) = (cofactor1 : ℤ) := by
    refine unique_multiple (r := r381) (q := p381) (by exact_mod_cast h2) ?_ b1 b2 g1_card_eq b3 b4
    have : (m ^ 2 + m * n + n ^ 2 : ℤ) = p381 := by rw [h1, hc]
    rw [← this]
    nlinarith [sq_nonneg n]
  rw [hk, Int.natCast_inj.mp this]

variable (K) in
/-- `(x, y) ↦ (β x, y)`. -/
def phi1 (hp : (p381 : K) = 0) : (cubic (4 : K)).Point →+ (cubic (4 : K)).Point :=
  endo (RingHom.id K) 4 (c := beta1) (d := 1) (fun h => by have := (beta_root hp).1; rw [h] at this; simp at this) one_ne_zero
    (by linear_combination ((beta1 : K) - 1) * (beta_root hp).1) (by simp)

theorem phi1_some (hp : (p381 : K) = 0) {x y : K} (h : (cubic (4 : K)).Nonsingular x y) :
    ∃ h', phi1 K hp (.some x y h) = .some (beta1 * x) y h' := by
  obtain ⟨h', e⟩ := endo_some (RingHom.id K) 4 (c := beta1) (d := 1) (fun h => by have := (beta_root hp).1; rw [h] at this; simp at this) one_ne_zero
    (by linear_combination ((beta1 : K) - 1) * (beta_root hp).1) (b' := 4) (by simp) h
  simp only [RingHom.id_apply, one_mul] at h' e
  exact ⟨h', e⟩

theorem phi1_sum (hp : (p381 : K) = 0) (P : (cubic (4 : K)).Point) : P + phi1 K hp P + phi1 K hp (phi1 K hp P) = 0 := by
  rcases P with _ | ⟨x, y, h⟩
  · exact (by simp : (0 : (cubic (4 : K)).Point) + phi1 K hp 0 + phi1 K hp (phi1 K hp 0) = 0)
  · obtain ⟨h', e⟩ := phi1_some hp h
    obtain ⟨h'', e'⟩ := phi1_some hp h'
    rw [e, e']
    exact omega_sum (beta_root hp).1 (beta_root hp).2 h h' h''

theorem phi1_generator (hp : (p381 : K) = 0) : (blsX * blsX) • g1Point hp = -phi1 K hp (g1Point hp) := by
  obtain ⟨⟨h1, h2, h3⟩, h4⟩ := g1_run_endo
  obtain ⟨x', y', h', e, ex, ey⟩ := cubic_computed (o := natOps p381) (ev := fun n : Nat => (n : K)) (one := 1)
    (natOps_right (by decide +kernel) hp) (fun a h => by rw [Nat.eq_of_beq_eq_true h, Nat.cast_zero]) Nat.cast_one (g1_nonsingular hp) _ _ rfl
    (natCast_ne_zero_of_gcd hp h1)
  rw [h4] at e
  obtain ⟨h'', e'⟩ := phi1_some hp (g1_nonsingular hp)
  rw [show g1Point hp = .some _ _ (g1_nonsingular hp) from rfl, e, e', Point.neg_some, point_inj, cubic_negY]
  have hz := natCast_ne_zero_of_gcd (K := K) hp h1
  constructor
  · have := cast_of_mod hp h2
    push_cast at this
    refine mul_right_cancel₀ (pow_ne_zero 2 hz) ?_
    rw [← ex, this]
    ring
  · have := cast_of_mod hp (n := 0) h3
    push_cast at this
    refine mul_right_cancel₀ (pow_ne_zero 3 hz) ?_
    rw [← ey]
    linear_combination this

/-- The test for the first group is exact on the points of the curve. -/
theorem inG1_iff [Fintype K] (hc : Fintype.card K = p381) (P : (cubic (4 : K)).Point) : inG1 (coordsOf P) = true ↔ r381 • P = 0 := by
  have hp : (p381 : K) = 0 := by rw [← hc]; exact FiniteField.cast_card_eq_zero K
  rcases hP : P with _ | ⟨x, y, h⟩
  · exact ⟨fun _ => nsmul_zero _, fun _ => onOwn_zero _ rfl⟩
  · rw [← hP, inG1, show coordsOf P = ⟨x, y, false⟩ by rw [hP]; rfl, onOwn_some _ h, ← hP]
    obtain ⟨h', e⟩ := phi1_some hp h
    rw [← hP] at e
    simp only
    have hx : ∀ Q : (cubic (4 : K)).Point, sameAs Q x y = true ↔ Q = P := fun Q => by rw [sameAs_iff Q h, hP]
    have he : ∀ Q : (cubic (4 : K)).Point, sameAs Q (beta1 * x) y = true ↔ Q = phi1 K hp P := fun Q => by rw [sameAs_iff Q h', e]
    have hne : P ≠ 0 := by rw [hP]; intro h; cases h
    constructor
    · intro ht
      split_ifs at ht with h1
      rw [he, ← mul_nsmul'] at ht
      have h2 := phi1_sum hp P
      rw [← ht, map_neg, map_nsmul, ← ht] at h2
      rw [← sub_eq_zero.mpr h2]
      have h3 : (r381 + blsX * blsX) • P = (blsX * blsX * (blsX * blsX) + 1) • P := by rw [r381_eq]
      rw [add_nsmul, add_nsmul, one_nsmul, mul_nsmul' P (blsX * blsX)] at h3
      rw [eq_sub_of_add_eq h3, smul_neg, neg_neg]
      abel
    · intro hr
      obtain ⟨k, hk⟩ := killed_multiple g1_bound.2.2.2.2.2 (g1_card hc) (g1Point_killed hp) (g1Point_ne hp) hr
      have h1 : ¬ sameAs (blsX • P) x y = true := by
        rw [hx]
        intro h1
        have ho : addOrderOf P = r381 := addOrderOf_eq_prime hr hne
        have : (blsX - 1) • P = 0 := by
          have h2 : blsX = blsX - 1 + 1 := by decide +kernel
          rw [h2, add_nsmul, one_nsmul] at h1
          exact add_eq_right.mp h1
        have := ho ▸ addOrderOf_dvd_of_nsmul_eq_zero this
        exact absurd this (by decide +kernel)
      rw [if_neg h1, he, ← mul_nsmul', ← hk, map_zsmul, ← neg_eq_iff_eq_neg.mpr (phi1_generator hp), smul_neg, smul_comm]

end
end GS
