import Verif.Model.Bls381
import Verif.Lemmas.Jacobian
import Verif.Lemmas.Fr381

/-!
# The modulus of the base field of BLS12-381 is prime

The generator of the first group has order `r` modulo every prime factor of `p`. That is more than there are points modulo a factor below the square
root of `p`.
-/

namespace GS
open WeierstrassCurve.Affine

/-- The curve `y² = x³ + b`, to compute on. -/
def bareCurve {K : Type} [Field K] (b : K) : SWCurve K := ⟨0, b, fun _ => none, fun _ _ => true, fun _ => true⟩

section
variable {K : Type} [Field K] [DecidableEq K] {E : SWCurve K}

theorem SWCurve.nonsingular_of_smooth (h : (16 : K) * (4 * E.a ^ 3 + 27 * E.b ^ 2) ≠ 0) {x y : K} (hxy : y * y = x * x * x + E.a * x + E.b) :
    E.curve.Nonsingular x y :=
  (E.curve.equation_iff_nonsingular_of_Δ_ne_zero (by rw [SWCurve.curve_delta, neg_ne_zero]; exact h)).mp
    ((SWCurve.curve_equation x y).mpr hxy)

theorem SWCurve.card_points_of_smooth [Fintype K] (h : (16 : K) * (4 * E.a ^ 3 + 27 * E.b ^ 2) ≠ 0) :
    Nat.card E.curve.Point = Fintype.card {a : K × K // a.2 * a.2 = a.1 * a.1 * a.1 + E.a * a.1 + E.b} + 1 := by
  rw [← Fintype.card_option, ← Nat.card_eq_fintype_card]
  exact Nat.card_congr {
    toFun := fun | .zero => none | .some x y h => some ⟨(x, y), (curve_equation x y).mp h.1⟩
    invFun := fun | none => .zero | some a => .some a.1.1 a.1.2 (nonsingular_of_smooth h a.2)
    left_inv := fun p => by rcases p with _ | ⟨x, y, h⟩ <;> rfl
    right_inv := fun a => by rcases a with _ | ⟨⟨x, y⟩, h⟩ <;> rfl }

/-- At most two points for every first coordinate. -/
theorem SWCurve.card_points_le [Fintype K] (h : (16 : K) * (4 * E.a ^ 3 + 27 * E.b ^ 2) ≠ 0) :
    Nat.card E.curve.Point ≤ 2 * Fintype.card K + 1 := by
  rw [card_points_of_smooth h, Fintype.card_subtype]
  refine Nat.add_le_add_right ?_ 1
  refine (Finset.card_le_mul_card_image (f := Prod.fst) _ 2 fun x _ => ?_).trans (Nat.mul_le_mul_left 2 (Finset.card_le_univ _))
  rcases Finset.eq_empty_or_nonempty (Finset.filter (fun a : K × K => a.1 = x)
    (Finset.filter (fun a : K × K => a.2 * a.2 = a.1 * a.1 * a.1 + E.a * a.1 + E.b) Finset.univ)) with h0 | ⟨⟨x0, y0⟩, h0⟩
  · rw [h0]; simp
  · refine (Finset.card_le_card (t := {(x, y0), (x, -y0)}) fun ⟨x', y'⟩ h1 => ?_).trans Finset.card_le_two
    simp only [Finset.mem_filter, Finset.mem_univ, true_and] at h0 h1
    obtain ⟨e0, rfl⟩ := h0
    obtain ⟨e1, rfl⟩ := h1
    rcases mul_self_eq_mul_self_iff.mp (e1.trans e0.symm) with rfl | rfl <;> simp

end

/-- The binary digits of a number below `2^1000`. -/
def bits (n : Nat) : List Bool := digits2 1000 n []

theorem g1_equation : g1y * g1y % p381 = (g1x * g1x * g1x + 4) % p381 := by decide +kernel

set_option maxRecDepth 20000 in
theorem g1_run : let S := Jac.run (natOps p381) g1x g1y (bits (r381 - 1)).tail (g1x, g1y, 1)
    (Nat.gcd S.2.2 p381 = 1 ∧ S.1 % p381 = g1x * (S.2.2 * S.2.2) % p381 ∧ (S.2.1 + g1y * (S.2.2 * S.2.2 * S.2.2)) % p381 = 0) ∧
    bitsNat 1 (bits (r381 - 1)).tail + 1 = r381 := by decide +kernel

theorem natCast_mod {K : Type} [Ring K] {p : Nat} (hp : (p : K) = 0) (n : Nat) : ((n % p : Nat) : K) = n := by
  conv_rhs => rw [← Nat.div_add_mod n p]
  push_cast
  rw [hp, zero_mul, zero_add]

theorem cast_of_mod {K : Type} [Ring K] {p : Nat} (hp : (p : K) = 0) {m n : Nat} (h : m % p = n % p) : (m : K) = n := by
  rw [← natCast_mod hp m, h, natCast_mod hp]

/-- The generator, over any field whose characteristic divides `p`. -/
theorem g1_killed {K : Type} [Field K] [DecidableEq K] (hp : (p381 : K) = 0) (E : SWCurve K) (ha : E.a = 0)
    (hP : E.curve.Nonsingular (g1x : K) (g1y : K)) : r381 • (.some _ _ hP : E.curve.Point) = 0 := by
  obtain ⟨⟨h1, h2, h3⟩, h4⟩ := g1_run
  rw [← h4]
  refine SWCurve.killed (o := natOps p381) (ev := fun n : Nat => (n : K)) (one := 1) (natOps_right (by decide +kernel) hp) ?_ ha
    Nat.cast_one hP _ _ rfl ?_ ?_ ?_
  · intro a h
    have : a = 0 := Nat.eq_of_beq_eq_true h
    rw [this, Nat.cast_zero]
  · intro h0
    have := (Nat.isCoprime_iff_coprime.mpr h1).map (Int.castRingHom K)
    simp only [eq_intCast, Int.cast_natCast, hp, h0] at this
    exact not_isCoprime_zero_zero this
  · have := cast_of_mod hp h2
    push_cast at this
    rw [this]; ring
  · have := cast_of_mod hp (n := 0) h3
    push_cast at this
    linear_combination this

theorem p381_prime : p381.Prime := by
  by_contra hn
  have h2 : 2 ≤ p381 := by decide +kernel
  obtain ⟨q, hqp, hdvd, hle⟩ : ∃ q, q.Prime ∧ q ∣ p381 ∧ q ^ 2 ≤ p381 :=
    ⟨p381.minFac, Nat.minFac_prime (Nat.lt_of_lt_of_le Nat.one_lt_two h2).ne', Nat.minFac_dvd _,
      Nat.minFac_sq_le_self (Nat.lt_of_lt_of_le Nat.zero_lt_two h2) hn⟩
  have : Fact q.Prime := ⟨hqp⟩
  have hp : ((p381 : Nat) : ZMod q) = 0 := (ZMod.natCast_eq_zero_iff _ _).mpr hdvd
  let E : SWCurve (ZMod q) := bareCurve 4
  have hsm : (16 : ZMod q) * (4 * E.a ^ 3 + 27 * E.b ^ 2) ≠ 0 := by
    intro h0
    have h1 : ((6912 : Nat) : ZMod q) = 0 := by
      rw [← h0]; simp only [E, bareCurve]; norm_num
    have h3 : q ∣ Nat.gcd 6912 p381 := Nat.dvd_gcd ((ZMod.natCast_eq_zero_iff _ _).mp h1) hdvd
    rw [show Nat.gcd 6912 p381 = 1 by decide +kernel] at h3
    exact hqp.one_lt.ne' (Nat.dvd_one.mp h3)
  have hP : E.curve.Nonsingular (g1x : ZMod q) (g1y : ZMod q) := by
    refine SWCurve.nonsingular_of_smooth hsm ?_
    have := cast_of_mod hp g1_equation
    push_cast at this
    simp only [E, bareCurve]
    linear_combination this
  have hk := g1_killed hp E rfl hP
  have ho := addOrderOf_eq_prime (p := r381) (hp := ⟨r381_prime⟩) hk (by simp)
  have hc := ho ▸ addOrderOf_le_card (x := (.some _ _ hP : E.curve.Point))
  have hc' := hc.trans (SWCurve.card_points_le hsm)
  rw [ZMod.card] at hc'
  obtain ⟨m, hm, hr⟩ : ∃ m, 2 * m + 1 < r381 ∧ p381 < m ^ 2 := ⟨r381 / 2 - 1, by decide +kernel, by decide +kernel⟩
  have : q < m := lt_of_pow_lt_pow_left₀ 2 (Nat.zero_le _) (hle.trans_lt hr)
  generalize r381 = r at *
  omega

end GS
