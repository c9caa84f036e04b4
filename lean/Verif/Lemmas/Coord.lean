import Verif.Spec.Coord
import Verif.Lemmas.BlsG1
import Verif.Lemmas.BlsG2

/-! # Lemmas about coordinates of points -/

set_option linter.unusedSectionVars false

namespace GS
open WeierstrassCurve.Affine

section
variable {K : Type} [Field K] [DecidableEq K] {b : K}

namespace Projective

theorem of_zero {P : Projective K} : P.Of (0 : (cubic b).Point) ↔ P.z = 0 := Iff.rfl

theorem Of.eq {P : Projective K} {p q : (cubic b).Point} (hp : P.Of p) (hq : P.Of q) : p = q := by
  rcases p with _ | ⟨x, y, h⟩ <;> rcases q with _ | ⟨x', y', h'⟩
  · rfl
  · exact absurd hp hq.1
  · exact absurd hq hp.1
  · rw [point_inj]
    exact ⟨mul_right_cancel₀ (pow_ne_zero 2 hp.1) (hp.2.1.symm.trans hq.2.1), mul_right_cancel₀ (pow_ne_zero 3 hp.1) (hp.2.2.symm.trans hq.2.2)⟩

theorem intoAffine_of {P : Projective K} {p : (cubic b).Point} (h : P.Of p) : P.intoAffine = coordsOf p := by
  rcases p with _ | ⟨x, y, h'⟩
  · rw [intoAffine, if_pos (show P.z = 0 from h)]; rfl
  · obtain ⟨hz, hx, hy⟩ := h
    rw [intoAffine, if_neg hz]
    split_ifs with h1
    · rw [hx, hy, h1]; simp [coordsOf]
    · simp only [coordsOf, Affine.mk.injEq, and_true]
      rw [hx, hy]
      constructor
      · field_simp
      · field_simp

theorem intoGroup_of (p : (cubic b).Point) : (coordsOf p).intoGroup.Of p := by
  rcases p with _ | ⟨x, y, h'⟩
  · exact (rfl : (Projective.zero : Projective K).z = 0)
  · exact ⟨one_ne_zero, by simp [coordsOf, Affine.intoGroup], by simp [coordsOf, Affine.intoGroup]⟩

theorem neg_of {P : Projective K} {p : (cubic b).Point} (h : P.Of p) : P.neg.Of (-p) := by
  rcases p with _ | ⟨x, y, h'⟩
  · exact h
  · rw [Point.neg_some]
    obtain ⟨hz, hx, hy⟩ := h
    refine ⟨hz, hx, ?_⟩
    rw [cubic_negY]
    simp only [neg, hy]
    ring

variable (h2 : (2 : K) ≠ 0)
include h2

theorem double_of {P : Projective K} {p : (cubic b).Point} (h : P.Of p) : P.double.Of (p + p) := by
  rcases p with _ | ⟨x, y, h'⟩
  · rw [double, if_pos (show P.z = 0 from h)]
    exact (add_zero (0 : (cubic b).Point)).symm ▸ h
  · obtain ⟨X, Y, Z⟩ := P
    obtain ⟨hz, hx, hy⟩ := h
    simp only at hz hx hy
    rw [double, if_neg hz]
    simp only [hx, hy]
    by_cases hy0 : y = 0
    · rw [Point.add_self_of_Y_eq (by rw [cubic_negY, hy0, neg_zero])]
      show _ = _
      simp [hy0]
    · have h2y : 2 * y ≠ 0 := mul_ne_zero h2 hy0
      have hx' : ((3 * x ^ 2) ^ 2 - 2 * x * (2 * y) ^ 2) / (2 * y) ^ 2 * (2 * y) ^ 2 = (3 * x ^ 2) ^ 2 - 2 * x * (2 * y) ^ 2 :=
        div_mul_cancel₀ _ (pow_ne_zero 2 h2y)
      generalize ((3 * x ^ 2) ^ 2 - 2 * x * (2 * y) ^ 2) / (2 * y) ^ 2 = x' at hx'
      have hy' : (3 * x ^ 2 * (x - x') - y * (2 * y)) / (2 * y) * (2 * y) = 3 * x ^ 2 * (x - x') - y * (2 * y) := div_mul_cancel₀ _ h2y
      generalize (3 * x ^ 2 * (x - x') - y * (2 * y)) / (2 * y) = y' at hy'
      obtain ⟨h'', e'⟩ := SWCurve.double_some (E := bareCurve b) rfl h' h2y hx' hy'
      have e'' : (Point.some x y h' + Point.some x y h' : (cubic b).Point) = Point.some x' y' h'' := e'
      rw [e'']
      refine ⟨?_, ?_, ?_⟩
      · exact mul_ne_zero h2 (mul_ne_zero hz (mul_ne_zero hy0 (pow_ne_zero _ hz)))
      · simp only
        linear_combination (-Z ^ 8) * hx'
      · simp only
        linear_combination (-Z ^ 12 * (4 * y ^ 2)) * hy' + 3 * x ^ 2 * Z ^ 12 * hx'

/-- The sum of points with different first coordinates. -/
theorem sum_some {x y x0 y0 : K} (h : (cubic b).Nonsingular x y) (h0 : (cubic b).Nonsingular x0 y0) (hd : x0 - x ≠ 0) :
    ∃ x' y' h', (Point.some x y h + Point.some x0 y0 h0 : (cubic b).Point) = Point.some x' y' h' ∧ (x' + x + x0) * (x0 - x) ^ 2 = (y0 - y) ^ 2 ∧
      (y' + y) * (x0 - x) = (y0 - y) * (x - x') := by
  have hx' : ((y0 - y) ^ 2 / (x0 - x) ^ 2 - x - x0 + x + x0) * (x0 - x) ^ 2 = (y0 - y) ^ 2 := by
    rw [show (y0 - y) ^ 2 / (x0 - x) ^ 2 - x - x0 + x + x0 = (y0 - y) ^ 2 / (x0 - x) ^ 2 by ring]
    exact div_mul_cancel₀ _ (pow_ne_zero 2 hd)
  generalize (y0 - y) ^ 2 / (x0 - x) ^ 2 - x - x0 = x' at hx'
  have hy' : ((y0 - y) * (x - x') / (x0 - x) - y + y) * (x0 - x) = (y0 - y) * (x - x') := by
    rw [sub_add_cancel]
    exact div_mul_cancel₀ _ hd
  generalize (y0 - y) * (x - x') / (x0 - x) - y = y' at hy'
  obtain ⟨h', e'⟩ := SWCurve.add_some (E := bareCurve b) h h0 hd hx' hy'
  exact ⟨x', y', h', e', hx', hy'⟩

omit h2 in
/-- Points with the same first coordinate are equal or opposite. -/
theorem same_x {x y y0 : K} (h : (cubic b).Nonsingular x y) (h0 : (cubic b).Nonsingular x y0) (hne : y ≠ y0) :
    (Point.some x y h + Point.some x y0 h0 : (cubic b).Point) = 0 := by
  refine Point.add_of_Y_eq rfl ?_
  rw [cubic_negY]
  have e1 := ((cubic_nonsingular b x y).mp h).1
  have e2 := ((cubic_nonsingular b x y0).mp h0).1
  have : (y - y0) * (y + y0) = 0 := by linear_combination e1 - e2
  rcases mul_eq_zero.mp this with h3 | h3
  · exact absurd (sub_eq_zero.mp h3) hne
  · linear_combination h3

theorem add_of {P Q : Projective K} {p q : (cubic b).Point} (hp : P.Of p) (hq : Q.Of q) : (P.add Q).Of (p + q) := by
  rcases p with _ | ⟨x, y, h⟩
  · rw [add, if_pos (show P.z = 0 from hp)]
    exact (zero_add q).symm ▸ hq
  rcases q with _ | ⟨x0, y0, h0⟩
  · rw [add, if_neg hp.1, if_pos (show Q.z = 0 from hq)]
    exact (add_zero (Point.some x y h)).symm ▸ hp
  have hp0 := hp
  obtain ⟨X, Y, Z⟩ := P
  obtain ⟨X0, Y0, Z0⟩ := Q
  obtain ⟨hz, hx, hy⟩ := hp
  obtain ⟨hz0, hx0, hy0⟩ := hq
  simp only at hz hx hy hz0 hx0 hy0
  rw [add, if_neg hz, if_neg hz0]
  simp only
  have ex : X * (Z0 * Z0) = X0 * (Z * Z) ↔ x = x0 := by
    rw [hx, hx0]
    constructor
    · intro hh
      exact mul_right_cancel₀ (mul_ne_zero (pow_ne_zero 2 hz) (pow_ne_zero 2 hz0)) (by linear_combination hh)
    · rintro rfl; ring
  have ey : Y * Z0 * (Z0 * Z0) = Y0 * Z * (Z * Z) ↔ y = y0 := by
    rw [hy, hy0]
    constructor
    · intro hh
      exact mul_right_cancel₀ (mul_ne_zero (pow_ne_zero 3 hz) (pow_ne_zero 3 hz0)) (by linear_combination hh)
    · rintro rfl; ring
  split_ifs with hc <;> rw [ex, ey] at hc
  · obtain ⟨rfl, rfl⟩ := hc
    exact double_of h2 hp0
  · by_cases hxx : x = x0
    · subst hxx
      rw [same_x h h0 fun hh => hc ⟨rfl, hh⟩]
      show _ = _
      simp only [hx, hx0]
      ring
    · have hd : x0 - x ≠ 0 := sub_ne_zero.mpr (Ne.symm hxx)
      obtain ⟨x', y', h', e, hx', hy'⟩ := sum_some (b := b) h2 h h0 hd
      rw [e]
      refine ⟨?_, ?_, ?_⟩
      · simp only [hx, hx0]
        rw [show 2 * (Z * Z0 * (x0 * Z0 ^ 2 * (Z * Z) - x * Z ^ 2 * (Z0 * Z0))) = 2 * (Z ^ 3 * Z0 ^ 3 * (x0 - x)) by ring]
        exact mul_ne_zero h2 (mul_ne_zero (mul_ne_zero (pow_ne_zero _ hz) (pow_ne_zero _ hz0)) hd)
      · simp only [hx, hx0, hy, hy0]
        linear_combination (-4 * Z ^ 6 * Z0 ^ 6) * hx'
      · simp only [hx, hx0, hy, hy0]
        linear_combination (-8 * Z ^ 9 * Z0 ^ 9 * (x0 - x) ^ 2) * hy' + 8 * (y0 - y) * Z ^ 9 * Z0 ^ 9 * hx'

omit h2 in
theorem addAffine_eq (P : Projective K) (x y : K) : P.addAffine ⟨x, y, false⟩ = P.add ⟨x, y, 1⟩ := by
  rw [addAffine, add]
  simp only [Bool.false_eq_true, if_false, one_ne_zero, mul_one]
  by_cases hz : P.z = 0
  · rw [if_pos hz, if_pos hz]
  · rw [if_neg hz, if_neg hz, mul_comm P.z y]
    refine if_congr Iff.rfl rfl ?_
    ext <;> simp only <;> ring

theorem addAffine_of {P : Projective K} {p q : (cubic b).Point} (hp : P.Of p) : (P.addAffine (coordsOf q)).Of (p + q) := by
  rcases q with _ | ⟨x0, y0, h0⟩
  · rw [addAffine, if_pos (show (coordsOf (Point.zero : (cubic b).Point)).infinity = true from rfl)]
    exact (add_zero p).symm ▸ hp
  rw [show coordsOf (Point.some x0 y0 h0) = ⟨x0, y0, false⟩ from rfl, addAffine_eq]
  exact add_of h2 hp ⟨one_ne_zero, by simp, by simp⟩

theorem sub_of {P Q : Projective K} {p q : (cubic b).Point} (hp : P.Of p) (hq : Q.Of q) : (P.sub Q).Of (p - q) := by
  rw [sub_eq_add_neg]
  exact add_of h2 hp (neg_of hq)

omit h2 in
theorem same_of {P Q : Projective K} {p q : (cubic b).Point} (hp : P.Of p) (hq : Q.Of q) : P.same Q = true ↔ p = q := by
  rcases p with _ | ⟨x, y, h⟩ <;> rcases q with _ | ⟨x0, y0, h0⟩
  · rw [same, if_pos (show P.z = 0 from hp), decide_eq_true_iff]
    exact iff_of_true hq rfl
  · rw [same, if_pos (show P.z = 0 from hp), decide_eq_true_iff]
    exact iff_of_false hq.1 (by intro h; cases h)
  · rw [same, if_neg hp.1, if_pos (show Q.z = 0 from hq)]
    exact iff_of_false (by simp) (by intro h; cases h)
  · obtain ⟨X, Y, Z⟩ := P
    obtain ⟨X0, Y0, Z0⟩ := Q
    obtain ⟨hz, hx, hy⟩ := hp
    obtain ⟨hz0, hx0, hy0⟩ := hq
    simp only at hz hx hy hz0 hx0 hy0
    rw [same, if_neg hz, if_neg hz0, point_inj]
    simp only [Bool.and_eq_true, decide_eq_true_iff, hx, hx0, hy, hy0]
    refine and_congr ⟨fun hh => ?_, ?_⟩ ⟨fun hh => ?_, ?_⟩
    · exact mul_right_cancel₀ (mul_ne_zero (pow_ne_zero 2 hz) (pow_ne_zero 2 hz0)) (by linear_combination hh)
    · rintro rfl; ring
    · exact mul_right_cancel₀ (mul_ne_zero (pow_ne_zero 3 hz) (pow_ne_zero 3 hz0)) (by linear_combination hh)
    · rintro rfl; ring

theorem mulNat_of {P : Projective K} {p : (cubic b).Point} (hp : P.Of p) (n : Nat) : (P.mulNat n).Of (n • p) := by
  rw [mulNat, List.foldl_reverse]
  induction n using Nat.binaryRec' with
  | zero => rw [zero_nsmul]; exact (rfl : (Projective.zero : Projective K).z = 0)
  | bit b n h ih =>
    rw [Nat.bits_append_bit n b h, List.foldr_cons]
    have hd := double_of h2 ih
    cases b
    · rw [show Nat.bit false n = n + n by simp [two_mul], add_nsmul]
      exact hd
    · rw [show Nat.bit true n = n + n + 1 by simp [two_mul], add_nsmul, add_nsmul, one_nsmul]
      exact add_of h2 hd hp

theorem affine_mulNat_of (p : (cubic b).Point) (n : Nat) : ((coordsOf p).mulNat n).Of (n • p) := by
  rw [Affine.mulNat, List.foldl_reverse]
  induction n using Nat.binaryRec' with
  | zero => rw [zero_nsmul]; exact (rfl : (Projective.zero : Projective K).z = 0)
  | bit b n h ih =>
    rw [Nat.bits_append_bit n b h, List.foldr_cons]
    have hd := double_of h2 ih
    cases b
    · rw [show Nat.bit false n = n + n by simp [two_mul], add_nsmul]
      exact hd
    · rw [show Nat.bit true n = n + n + 1 by simp [two_mul], add_nsmul, add_nsmul, one_nsmul]
      exact addAffine_of h2 hd

/-- The loop, once a pair of zeros was skipped. -/
theorem loop_of {b1 b2 b1b2 : Projective K} {p1 p2 : (cubic b).Point} (h1 : b1.Of p1) (h2' : b2.Of p2) (h12 : b1b2.Of (p1 + p2)) (l : List (Bool × Bool)) :
    ∀ (res : Projective K) (s t : Nat), res.Of (s • p1 + t • p2) →
      (glvLoop b1 b2 b1b2 res false l).Of (bitsNat s (l.map Prod.fst) • p1 + bitsNat t (l.map Prod.snd) • p2) := by
  induction l with
  | nil => exact fun res s t h => h
  | cons c l ih =>
    intro res s t h
    have hd := double_of h2 h
    have e : s • p1 + t • p2 + (s • p1 + t • p2) = (2 * s) • p1 + (2 * t) • p2 := by
      rw [two_mul, two_mul, add_nsmul, add_nsmul]; abel
    rw [e] at hd
    obtain ⟨_ | _, _ | _⟩ := c
    · rw [glvLoop, if_neg (by simp)]
      exact ih _ _ _ hd
    · rw [glvLoop]
      refine ih _ _ _ ?_
      have := add_of h2 hd h2'
      simpa [add_nsmul, add_assoc] using this
    · rw [glvLoop]
      refine ih _ _ _ ?_
      have := add_of h2 hd h1
      have e2 : (2 * s) • p1 + (2 * t) • p2 + p1 = (2 * s + 1) • p1 + (2 * t) • p2 := by rw [add_nsmul, one_nsmul]; abel
      rw [e2] at this
      simpa using this
    · rw [glvLoop]
      refine ih _ _ _ ?_
      have := add_of h2 hd h12
      have e2 : (2 * s) • p1 + (2 * t) • p2 + (p1 + p2) = (2 * s + 1) • p1 + (2 * t + 1) • p2 := by
        rw [add_nsmul, add_nsmul, one_nsmul, one_nsmul]; abel
      rw [e2] at this
      simpa using this

end Projective

end

theorem bitsNat_add (k : Nat) (l : List Bool) : bitsNat k l = k * 2 ^ l.length + bitsNat 0 l := by
  induction l generalizing k with
  | nil => simp [bitsNat]
  | cons b l ih =>
    rw [bitsNat, bitsNat, ih, ih (2 * 0 + _), List.length_cons, pow_succ]
    ring

theorem bitsNat_testBit (n k : Nat) : bitsNat 0 ((List.range k).reverse.map fun i => n.testBit i) = n % 2 ^ k := by
  induction k with
  | zero => simp [bitsNat, Nat.mod_one]
  | succ k ih =>
    rw [List.range_succ, List.reverse_append, List.reverse_singleton, List.singleton_append, List.map_cons, bitsNat, bitsNat_add, ih, Nat.mod_pow_succ, Nat.testBit_eq_decide_div_mod_eq]
    rcases Nat.mod_two_eq_zero_or_one (n / 2 ^ k) with h | h <;> simp [h, add_comm]

theorem bits256_eq (n : Nat) (h : n < 2 ^ 255) : ∃ l, bits256 n = false :: l ∧ bitsNat 0 l = n ∧ l.length = 255 := by
  refine ⟨(List.range 255).reverse.map fun i => n.testBit i, ?_, ?_, by simp⟩
  · rw [bits256, show (256 : Nat) = 255 + 1 from rfl, List.range_succ, List.reverse_append, List.reverse_singleton, List.singleton_append, List.map_cons,
      Nat.testBit_lt_two_pow h]
  · rw [bitsNat_testBit, Nat.mod_eq_of_lt h]

theorem r381_lt : r381 < 2 ^ 255 := by decide +kernel

theorem glv_consts : glvCoeffs = (((blsX * blsX : Nat) : Int), 1, -1, ((blsX * blsX : Nat) : Int) - 1) ∧ (r381 : Int) = (blsX * blsX : Nat) * (blsX * blsX : Nat) - (blsX * blsX : Nat) + 1 ∧
    (4 : Int) ≤ (blsX * blsX : Nat) ∧ blsX * blsX < r381 ∧ blsX * blsX < 2 ^ 128 := by decide +kernel

/-- The two halves of a scalar. -/
theorem glvSplit_eq {k : Nat} (hk : k < r381) :
    ((glvSplit k).1 : Int) - (blsX * blsX : Nat) * (glvSplit k).2 = k ∧ (glvSplit k).1.natAbs ≤ blsX * blsX ∧ (glvSplit k).2.natAbs ≤ blsX * blsX := by
  obtain ⟨c1, c2, c3, -, -⟩ := glv_consts
  have hk' : (k : Int) < r381 := by exact_mod_cast hk
  have hk0 : (0 : Int) ≤ k := Int.natCast_nonneg k
  have hr : (0 : Int) < r381 := by rw [c2]; nlinarith
  have hb2 : roundDiv (k * -1) r381 = 0 := by
    have h1 : ((k : Int) * -1).tdiv r381 = 0 := by
      rw [mul_neg_one, Int.neg_tdiv, Int.tdiv_eq_zero_of_lt hk0 hk', neg_zero]
    have h2 : ((k : Int) * -1).tmod r381 ≤ 0 := by
      rw [mul_neg_one, Int.neg_tmod, Left.neg_nonpos_iff]
      exact Int.tmod_nonneg _ hk0
    rw [roundDiv, if_neg (by omega), h1]
  have hs : glvSplit k = (k - (roundDiv (k * ((blsX * blsX : Nat) - 1)) r381 * (blsX * blsX : Nat) + 0 * -1),
      -(roundDiv (k * ((blsX * blsX : Nat) - 1)) r381 * 1 + 0 * ((blsX * blsX : Nat) - 1))) := by
    rw [← hb2]
    simp only [glvSplit, c1]
  rw [hs]
  generalize hY : ((blsX * blsX : Nat) : Int) = Y at *
  have hY0 : blsX * blsX = Y.toNat := by omega
  have hm0 : (0 : Int) ≤ k * (Y - 1) := mul_nonneg hk0 (by omega)
  obtain ⟨q, hq⟩ : ∃ q, q = ((k : Int) * (Y - 1)).tdiv r381 := ⟨_, rfl⟩
  obtain ⟨m, hm⟩ : ∃ m, m = ((k : Int) * (Y - 1)).tmod r381 := ⟨_, rfl⟩
  have hqm : (r381 : Int) * q + m = k * (Y - 1) := by rw [hq, hm]; exact Int.mul_tdiv_add_tmod _ _
  have hm1 : 0 ≤ m := by rw [hm]; exact Int.tmod_nonneg _ hm0
  have hm2 : m < r381 := by rw [hm]; exact Int.tmod_lt_of_pos _ hr
  obtain ⟨β, hβ⟩ : ∃ β, β = roundDiv (k * (Y - 1)) r381 := ⟨_, rfl⟩
  rw [← hβ]
  have hβ' : 2 * (r381 * β) ≤ 2 * (k * (Y - 1)) + r381 ∧ 2 * (k * (Y - 1)) ≤ 2 * (r381 * β) + r381 := by
    rw [hβ, roundDiv, ← hq, ← hm]
    split_ifs with h
    · constructor <;> nlinarith
    · constructor <;> nlinarith
  generalize (r381 : Int) = R at *
  have b0 : 0 ≤ β := by
    by_contra h
    have : β ≤ -1 := by omega
    nlinarith
  have b1 : β ≤ Y := by
    by_contra h
    have : Y + 1 ≤ β := by omega
    nlinarith
  have e1 : R * (k - β * Y) = (k * (Y - 1) - R * β) * Y + k := by rw [c2]; ring
  refine ⟨by ring, ?_, ?_⟩
  · rw [hY0]
    have u : k - β * Y ≤ Y := by
      by_contra h
      have : Y + 1 ≤ k - β * Y := by omega
      nlinarith
    have l : -Y ≤ k - β * Y := by
      by_contra h
      have : k - β * Y ≤ -Y - 1 := by omega
      nlinarith
    omega
  · rw [hY0]; omega

section
variable {K : Type} [Field K] [DecidableEq K] {b : K}

namespace Projective

theorem endo_of (hβ : (beta1 : K) ^ 3 = 1) {P : Projective K} {p : (cubic b).Point} (hp : P.Of p) : ∃ q : (cubic b).Point, P.endo.Of q := by
  rcases p with _ | ⟨x, y, h⟩
  · exact ⟨0, hp⟩
  · obtain ⟨h1, h2⟩ := (cubic_nonsingular b x y).mp h
    have hne : (beta1 : K) ≠ 0 := fun h0 => by rw [h0] at hβ; simp at hβ
    refine ⟨.some (beta1 * x) y ((cubic_nonsingular b _ y).mpr ⟨by rw [mul_pow, hβ, one_mul]; exact h1, ?_⟩), hp.1, ?_, hp.2.2⟩
    · refine h2.imp_left fun h3 => ?_
      rw [mul_pow, mul_left_comm]
      exact mul_ne_zero (pow_ne_zero 2 hne) h3
    · show beta1 * P.x = beta1 * x * P.z ^ 2
      rw [hp.2.1]; ring

theorem abs_smul {A : Type} [AddCommGroup A] (k : Int) (p : A) : k.natAbs • (if 0 < k then p else -p) = k • p := by
  split_ifs with h
  · rw [← natCast_zsmul, Int.natAbs_of_nonneg h.le]
  · rw [smul_neg, ← natCast_zsmul, Int.natCast_natAbs, abs_of_nonpos (not_lt.mp h), neg_smul, neg_neg]

theorem glv_of (h2 : (2 : K) ≠ 0) {P : Projective K} {p q : (cubic b).Point} (hp : P.Of p) (hq : P.endo.Of q) {k : Nat} (hk : k < r381) :
    (P.glvMul k).Of ((glvSplit k).1 • p + (glvSplit k).2 • q) := by
  obtain ⟨-, a1, a2⟩ := glvSplit_eq hk
  have hX : blsX * blsX < r381 := glv_consts.2.2.2.1
  rw [glvMul]
  generalize glvSplit k = s at *
  obtain ⟨k1, k2⟩ := s
  simp only at a1 a2 ⊢
  have m1 : k1.natAbs % r381 = k1.natAbs := Nat.mod_eq_of_lt (by omega)
  have m2 : k2.natAbs % r381 = k2.natAbs := Nat.mod_eq_of_lt (by omega)
  rw [m1, m2]
  have hr : r381 < 2 ^ 255 := r381_lt
  obtain ⟨l1, e1, n1, c1⟩ := bits256_eq k1.natAbs (by omega)
  obtain ⟨l2, e2, n2, c2⟩ := bits256_eq k2.natAbs (by omega)
  rw [e1, e2, List.zip_cons_cons, glvLoop, if_pos rfl]
  have hb1 : (if 0 < k1 then P else P.neg).Of (if 0 < k1 then p else -p) := by
    split_ifs
    · exact hp
    · exact neg_of hp
  have hb2 : (if 0 < k2 then P.endo else P.endo.neg).Of (if 0 < k2 then q else -q) := by
    split_ifs
    · exact hq
    · exact neg_of hq
  have := loop_of h2 hb1 hb2 (add_of h2 hb1 hb2) (l1.zip l2) .zero 0 0 (by simp only [zero_nsmul, add_zero]; exact (rfl : (Projective.zero : Projective K).z = 0))
  rw [List.map_fst_zip (by omega), List.map_snd_zip (by omega), n1, n2, abs_smul, abs_smul] at this
  exact this

theorem glvSplit_blsX : glvSplit blsX = ((blsX : Int), 0) := by decide +kernel

theorem glv_blsX (h2 : (2 : K) ≠ 0) (hβ : (beta1 : K) ^ 3 = 1) {P : Projective K} {p : (cubic b).Point} (hp : P.Of p) : (P.glvMul blsX).Of (blsX • p) := by
  obtain ⟨q, hq⟩ := endo_of hβ hp
  have := glv_of h2 hp hq (k := blsX) (by decide +kernel)
  rw [glvSplit_blsX] at this
  simpa using this

theorem beta_cube (hp : (p381 : K) = 0) : (beta1 : K) ^ 3 = 1 := by
  linear_combination ((beta1 : K) - 1) * (beta_root hp).1

/-- On the subgroup the endomorphism is a multiple. -/
theorem phi1_killed [Fintype K] (hc : Fintype.card K = p381) (hp : (p381 : K) = 0) {p : (cubic (4 : K)).Point} (hr : r381 • p = 0) :
    phi1 K hp p = -((blsX * blsX) • p) := by
  obtain ⟨k, rfl⟩ := killed_multiple g1_bound.2.2.2.2.2 (g1_card hc) (g1Point_killed hp) (g1Point_ne hp) hr
  rw [map_zsmul, ← neg_eq_iff_eq_neg.mpr (phi1_generator hp), smul_neg, smul_comm]

theorem endo_phi1 (hp : (p381 : K) = 0) {P : Projective K} {p : (cubic (4 : K)).Point} (h : P.Of p) : P.endo.Of (phi1 K hp p) := by
  rcases p with _ | ⟨x, y, h'⟩
  · have : phi1 K hp (Point.zero) = 0 := map_zero (phi1 K hp)
    rw [this]
    exact h
  · obtain ⟨h'', e⟩ := phi1_some hp h'
    rw [e]
    refine ⟨h.1, ?_, h.2.2⟩
    show beta1 * P.x = beta1 * x * P.z ^ 2
    rw [h.2.1]; ring

/-- The method is right on the subgroup. -/
theorem glv_killed [Fintype K] (hc : Fintype.card K = p381) {P : Projective K} {p : (cubic (4 : K)).Point} (h : P.Of p) (hr : r381 • p = 0) {k : Nat}
    (hk : k < r381) : (P.glvMul k).Of (k • p) := by
  have hp : (p381 : K) = 0 := by rw [← hc]; exact FiniteField.cast_card_eq_zero K
  have := glv_of (p381_two hp) h (endo_phi1 hp h) hk
  rw [phi1_killed hc hp hr, ← natCast_zsmul, ← neg_smul, ← mul_smul, ← add_smul] at this
  have e : (glvSplit k).1 + (glvSplit k).2 * -((blsX * blsX : Nat) : Int) = k := by
    linear_combination (glvSplit_eq hk).1
  rw [e, natCast_zsmul] at this
  exact this

/-! ### The tests -/

theorem same_coords {P : Projective K} {p : (cubic b).Point} (h : P.Of p) (x y : K) : P.same (Affine.intoGroup ⟨x, y, false⟩) = sameAs p x y := by
  rw [show Affine.intoGroup (⟨x, y, false⟩ : Affine K) = ⟨x, y, 1⟩ from rfl]
  rcases p with _ | ⟨x', y', h'⟩
  · rw [same, if_pos (show P.z = 0 from h)]
    simp [sameAs]
  · obtain ⟨hz, hx, hy⟩ := h
    rw [same, if_neg hz, if_neg (by simp), sameAs, Bool.decide_and]
    simp only [mul_one, hx, hy]
    congr 1 <;> rw [decide_eq_decide]
    · rw [show x * (P.z * P.z) = x * P.z ^ 2 by ring]
      exact mul_left_inj' (pow_ne_zero 2 hz)
    · rw [show y * (P.z * P.z * P.z) = y * P.z ^ 3 by ring]
      exact mul_left_inj' (pow_ne_zero 3 hz)

/-- An even multiple of the singular point is computed to be zero. -/
theorem singular_mulNat (n : Nat) (hn : n % 2 = 0) : (Affine.mulNat (⟨0, 0, false⟩ : Affine K) n).z = 0 := by
  have key : ∀ n : Nat, let R := n.bits.foldr (fun x y => if x then y.double.addAffine (⟨0, 0, false⟩ : Affine K) else y.double) Projective.zero
      (R.z = 0 ∨ R.x = 0 ∧ R.y = 0) ∧ (n % 2 = 0 → R.z = 0) := by
    intro n
    induction n using Nat.binaryRec' with
    | zero => exact ⟨.inl rfl, fun _ => rfl⟩
    | bit b n h ih =>
      simp only
      rw [Nat.bits_append_bit n b h, List.foldr_cons]
      simp only at ih
      generalize n.bits.foldr (fun x y => if x then y.double.addAffine (⟨0, 0, false⟩ : Affine K) else y.double) Projective.zero = R at ih ⊢
      have hz : R.double.z = 0 := by
        rw [double]
        split_ifs with h0
        · exact h0
        · rcases ih.1 with h1 | h1
          · exact absurd h1 h0
          · simp [h1.2]
      cases b
      · exact ⟨.inl hz, fun _ => hz⟩
      · simp only [if_true]
        rw [addAffine, if_neg (by simp), if_pos hz]
        refine ⟨.inr ⟨rfl, rfl⟩, fun h0 => ?_⟩
        rw [Nat.bit_mod_two] at h0
        simp at h0
  rw [Affine.mulNat, List.foldl_reverse]
  exact (key n).2 hn

theorem infinity_mulNat {P : Affine K} (h : P.infinity = true) (n : Nat) : (P.mulNat n).z = 0 := by
  rw [Affine.mulNat, List.foldl_reverse]
  induction n.bits with
  | nil => rfl
  | cons b l ih =>
    rw [List.foldr_cons]
    generalize l.foldr (fun x y => if x then y.double.addAffine P else y.double) Projective.zero = R at ih ⊢
    rw [addAffine, if_pos h, ite_self, double, if_pos ih, ih]

/-- A point is a nonsingular point of its own curve, or both coordinates are zero. -/
theorem own_or (h2 : (2 : K) ≠ 0) (h3 : (3 : K) ≠ 0) (x y : K) : (cubic (y * y - x * x * x)).Nonsingular x y ∨ x = 0 ∧ y = 0 := by
  by_contra h
  rw [not_or, cubic_nonsingular] at h
  have e : y ^ 2 = x ^ 3 + (y * y - x * x * x) := by ring
  have h1 := h.1
  rw [not_and_or, not_or, not_not, not_not] at h1
  rcases h1 with h1 | ⟨h4, h5⟩
  · exact h1 e
  · exact h.2 ⟨pow_eq_zero_iff (two_ne_zero) |>.mp ((mul_eq_zero.mp h4).resolve_left h3), (mul_eq_zero.mp h5).resolve_left h2⟩

theorem neg_z (P : Projective K) : P.neg.z = P.z := rfl

theorem blsX_even : blsX % 2 = 0 := by decide +kernel

attribute [local irreducible] blsX

/-- Multiplication by the parameter of the curve. -/
def ByX (mul : Projective K → Nat → Projective K) : Prop := ∀ (b : K) (P : Projective K) (p : (cubic b).Point), P.Of p → (mul P blsX).Of (blsX • p)

theorem coordG1_eq (h2 : (2 : K) ≠ 0) (h3 : (3 : K) ≠ 0) {mul : Projective K → Nat → Projective K} (hm : ByX mul) (P : Affine K) : coordG1 mul P = inG1 P := by
  obtain ⟨x, y, i⟩ := P
  have hzero : ∀ Q : Projective K, Q.z = 0 → (mul Q blsX).z = 0 := fun Q hQ => by
    have := hm 0 Q 0 hQ
    rwa [nsmul_zero] at this
  cases i
  · rcases own_or h2 h3 x y with h | ⟨rfl, rfl⟩
    · rw [inG1, onOwn_some _ h, coordG1]
      have h1 := affine_mulNat_of h2 (.some x y h) blsX
      have e : coordsOf (.some x y h) = ⟨x, y, false⟩ := rfl
      rw [e] at h1
      simp only [same_coords h1, same_coords (neg_of (hm _ _ _ h1)), Bool.not_false, Bool.and_true, mul_comm x]
    · have e1 : coordG1 mul (⟨0, 0, false⟩ : Affine K) = false := by
        have hz := singular_mulNat (K := K) blsX blsX_even
        have hz' : (mul (Affine.mulNat (⟨0, 0, false⟩ : Affine K) blsX) blsX).neg.z = 0 := hzero _ hz
        rw [coordG1]
        simp only [same, hz, hz', if_true]
        simp [Affine.intoGroup]
      have e2 : inG1 (⟨0, 0, false⟩ : Affine K) = false := by
        rw [inG1, onOwn, Bool.false_or, dif_neg]
        rw [cubic_nonsingular]
        simp
      rw [e1, e2]
  · rw [inG1, onOwn_zero _ rfl, coordG1]
    have hz := infinity_mulNat (P := (⟨x, y, true⟩ : Affine K)) rfl blsX
    have hz' : (mul (Affine.mulNat (⟨x, y, true⟩ : Affine K) blsX) blsX).neg.z = 0 := hzero _ hz
    simp only [same, hz', if_true, Bool.not_true, Bool.and_false, Bool.false_eq_true, if_false]
    exact decide_eq_true rfl

end Projective

open Projective in
theorem coordG2_eq [Fact (∀ r : K, r ^ 2 ≠ -1 + 0 * r)] (h2 : (2 : Fq2 K) ≠ 0) (h3 : (3 : Fq2 K) ≠ 0) (P : Affine (Fq2 K)) : coordG2 P = inG2 P := by
  obtain ⟨x, y, i⟩ := P
  cases i
  · rcases own_or h2 h3 x y with h | ⟨rfl, rfl⟩
    · rw [inG2, onOwn_some _ h, coordG2]
      have h1 := affine_mulNat_of h2 (.some x y h) blsX
      have e : coordsOf (.some x y h) = ⟨x, y, false⟩ := rfl
      rw [e] at h1
      simp only [same_coords (neg_of h1), mul_comm (star x), mul_comm (star y)]
    · have e1 : coordG2 (⟨0, 0, false⟩ : Affine (Fq2 K)) = false := by
        have hz : (Affine.mulNat (⟨0, 0, false⟩ : Affine (Fq2 K)) blsX).neg.z = 0 := by
          rw [neg_z]
          exact singular_mulNat (K := Fq2 K) blsX blsX_even
        rw [coordG2]
        simp only [same, hz, if_true]
        simp [Affine.intoGroup]
      have e2 : inG2 (⟨0, 0, false⟩ : Affine (Fq2 K)) = false := by
        rw [inG2, onOwn, Bool.false_or, dif_neg]
        rw [cubic_nonsingular]
        simp
      rw [e1, e2]
  · rw [inG2, onOwn_zero _ rfl, coordG2]
    have hz : (Affine.mulNat (⟨x, y, true⟩ : Affine (Fq2 K)) blsX).neg.z = 0 := by
      rw [neg_z]
      exact infinity_mulNat rfl blsX
    simp only [same, hz, if_true]
    exact decide_eq_true rfl

end

end GS
