import Verif.Lemmas.BlsG1

/-! # The second group of BLS12-381 -/

set_option linter.unusedSectionVars false

namespace GS
open WeierstrassCurve.Affine

/-- A point of the curve of the second group outside of the group. -/
def q2x : Nat × Nat := (0, 1)

/-- A point of the curve of the second group outside of the group. -/
def q2y : Nat × Nat :=
  (2973677408986561043442465346520108879172042883009249989176415018091420807192182638567116318576472649347015917690530,
   3086196438705319049925973437647385832154519810789273688466929354097832529895965677626713931657629044072635064607771)

/-- `p = c² + c d + d²`. -/
def eisC : ℤ := 1155048275357884106335086113613464118768280431093290937003

/-- `p = c² + c d + d²`. -/
def eisD : ℤ := -2310096550715768212670172227226928237551693238409523516757

/-- The other number of points that `r` divides. -/
def wrong2 : Nat :=
  16019282247729705411943748644318972617695120099330552659862384536985976748491357143400656079302193429974954385540178735350214327874493741515851674229349549576732891050042476874288656032797313108158616246286454896710677267523756943

/-- Conjugation. -/
def conjPair (a : Nat × Nat) : Nat × Nat := (a.1, p381 - a.2)

/-- The norm. -/
def normPair (a : Nat × Nat) : Nat := a.1 * a.1 + a.2 * a.2

set_option maxRecDepth 20000 in
theorem g2_run : let o := pairOps p381
    let S := Jac.run o g2x g2y (bits (r381 - 1)).tail (g2x, g2y, (1, 0))
    Nat.gcd (normPair S.2.2) p381 = 1 ∧ o.isZero (o.sub S.1 (o.mul g2x (o.mul S.2.2 S.2.2))) = true ∧
    o.isZero (o.add S.2.1 (o.mul g2y (o.mul S.2.2 (o.mul S.2.2 S.2.2)))) = true := by decide +kernel

set_option maxRecDepth 20000 in
theorem g2_run_endo : let o := pairOps p381
    let S := Jac.run o g2x g2y (bits blsX).tail (g2x, g2y, (1, 0))
    (Nat.gcd (normPair S.2.2) p381 = 1 ∧ o.isZero (o.sub S.1 (o.mul (o.mul coeff0 (conjPair g2x)) (o.mul S.2.2 S.2.2))) = true ∧
    o.isZero (o.add S.2.1 (o.mul (o.mul coeff1 (conjPair g2y)) (o.mul S.2.2 (o.mul S.2.2 S.2.2)))) = true) ∧
    bitsNat 1 (bits blsX).tail = blsX := by decide +kernel

set_option maxRecDepth 20000 in
theorem q2_run : let o := pairOps p381
    let S := Jac.run o q2x q2y (bits wrong2).tail (q2x, q2y, (1, 0))
    Nat.gcd (normPair S.2.2) p381 = 1 ∧ bitsNat 1 (bits wrong2).tail = wrong2 := by decide +kernel

theorem g2_constants : let o := pairOps p381
    o.isZero (o.sub (o.mul g2y g2y) (o.add (o.mul g2x (o.mul g2x g2x)) (4, 4))) = true ∧
    o.isZero (o.sub (o.mul q2y q2y) (o.add (o.mul q2x (o.mul q2x q2x)) (4, 4))) = true ∧
    o.isZero (o.sub (o.mul coeff0 (o.mul coeff0 coeff0)) (o.mul coeff1 coeff1)) = true ∧
    o.isZero (o.sub (o.mul (o.mul coeff1 coeff1) (conjPair (4, 4))) (4, 4)) = true ∧
    o.isZero (o.add (o.mul coeff0 (conjPair coeff0)) (beta1 + 1, 0)) = true ∧
    o.isZero (o.add (o.mul coeff1 (conjPair coeff1)) (1, 0)) = true ∧
    Nat.gcd (normPair coeff0) p381 = 1 ∧ Nat.gcd (normPair coeff1) p381 = 1 ∧ Nat.gcd (normPair (4, 4)) p381 = 1 ∧
    (g2x.2 ≤ p381 ∧ g2y.2 ≤ p381 ∧ coeff0.2 ≤ p381 ∧ coeff1.2 ≤ p381 ∧ 4 ≤ p381) := by decide +kernel

theorem eis_p381 : eisC ^ 2 + eisC * eisD + eisD ^ 2 = p381 := by decide +kernel

theorem g2_orders : ∀ w ∈ eisUnits, ∀ f ∈ [eisMul eisC eisD, eisMul (eisC + eisD) (-eisD)], ∀ g ∈ [eisMul eisC eisD, eisMul (eisC + eisD) (-eisD)],
    ((p381 : ℤ) ^ 2 + 1 + (2 * (g (f w)).1 + (g (f w)).2)) % (r381 : ℤ) ≠ 0 ∨
    (p381 : ℤ) ^ 2 + 1 + (2 * (g (f w)).1 + (g (f w)).2) = (wrong2 : ℤ) ∨
    (p381 : ℤ) ^ 2 + 1 + (2 * (g (f w)).1 + (g (f w)).2) = (r381 : ℤ) * (cofactor2 : ℤ) := by decide +kernel

theorem g2_cofactor : ¬ r381 ∣ cofactor2 := by decide +kernel

section
variable {L : Type} [Field L] [DecidableEq L]

/-- The element of the field. -/
def evPair (u : L) (n : Nat × Nat) : L := (n.1 : L) + n.2 * u

variable {u : L} (hp : (p381 : L) = 0) (hu : u * u = -1)
include hp hu

theorem right2 : (pairOps p381).Right (evPair u) := pairOps_right (by decide +kernel) hp hu

omit hp in
theorem evPair_ne (hp : (p381 : L) = 0) {a : Nat × Nat} (h : Nat.gcd (normPair a) p381 = 1) : evPair u a ≠ 0 := by
  intro h0
  apply natCast_ne_zero_of_gcd (K := L) hp h
  simp only [normPair, evPair] at *
  push_cast
  linear_combination ((a.1 : L) - a.2 * u) * h0 + (a.2 : L) ^ 2 * hu

omit hp hu in
theorem evPair_zero (a : Nat × Nat) (h : (pairOps p381).isZero a = true) : evPair u a = 0 := by
  simp only [pairOps, Bool.and_eq_true] at h
  rw [evPair, Nat.eq_of_beq_eq_true h.1, Nat.eq_of_beq_eq_true h.2]
  simp

theorem evPair_sub {a b : Nat × Nat} (h : (pairOps p381).isZero ((pairOps p381).sub a b) = true) : evPair u a = evPair u b := by
  have := evPair_zero (u := u) _ h
  rw [(right2 hp hu).sub] at this
  exact sub_eq_zero.mp this

theorem evPair_add {a b : Nat × Nat} (h : (pairOps p381).isZero ((pairOps p381).add a b) = true) : evPair u a = -evPair u b := by
  have := evPair_zero (u := u) _ h
  rw [(right2 hp hu).add] at this
  exact eq_neg_of_add_eq_zero_left this

omit hu in
theorem evPair_conj (f : L →+* L) (hf : f u = -u) {a : Nat × Nat} (ha : a.2 ≤ p381) : evPair u (conjPair a) = f (evPair u a) := by
  simp only [evPair, conjPair, map_add, map_mul, map_natCast, hf]
  rw [Nat.cast_sub ha, hp]
  ring

omit hp hu in
theorem evPair_one : evPair u (1, 0) = 1 := by simp [evPair]

omit hp in
theorem four2_ne (hp : (p381 : L) = 0) : evPair u (4, 4) ≠ 0 := evPair_ne hu hp g2_constants.2.2.2.2.2.2.2.2.1

theorem g2_nonsingular : (cubic (evPair u (4, 4))).Nonsingular (evPair u g2x) (evPair u g2y) := by
  refine cubic_smooth (p381_two hp) (p381_three hp) (four2_ne hu hp) ?_
  have := evPair_sub hp hu g2_constants.1
  simp only [(right2 hp hu).mul, (right2 hp hu).add] at this
  linear_combination this

theorem q2_nonsingular : (cubic (evPair u (4, 4))).Nonsingular (evPair u q2x) (evPair u q2y) := by
  refine cubic_smooth (p381_two hp) (p381_three hp) (four2_ne hu hp) ?_
  have := evPair_sub hp hu g2_constants.2.1
  simp only [(right2 hp hu).mul, (right2 hp hu).add] at this
  linear_combination this

omit hp hu in
/-- The generator of the second group. -/
def g2Point (hp : (p381 : L) = 0) (hu : u * u = -1) : (cubic (evPair u (4, 4))).Point := .some _ _ (g2_nonsingular hp hu)

theorem g2Point_killed : r381 • g2Point hp hu = 0 := by
  obtain ⟨h1, h2, h3⟩ := g2_run
  have e2 := evPair_sub hp hu h2
  have e3 := evPair_add hp hu h3
  simp only [(right2 hp hu).mul] at e2 e3
  have := SWCurve.killed (E := bareCurve (evPair u (4, 4))) (right2 hp hu) evPair_zero rfl evPair_one (g2_nonsingular hp hu) _ _ rfl (evPair_ne hu hp h1)
    (by rw [e2]; ring) (by rw [e3]; ring)
  rw [g1_run.2] at this
  exact this

theorem g2Point_ne : g2Point hp hu ≠ 0 := by
  intro h; cases h

theorem q2Point_ne : wrong2 • (.some _ _ (q2_nonsingular hp hu) : (cubic (evPair u (4, 4))).Point) ≠ 0 := by
  obtain ⟨h1, h2⟩ := q2_run
  obtain ⟨x', y', h', e, -, -⟩ := cubic_computed (right2 hp hu) evPair_zero evPair_one (q2_nonsingular hp hu) _ _ rfl (evPair_ne hu hp h1)
  rw [h2] at e
  rw [e]
  intro h; cases h

theorem g2_card [Fintype L] (hc : Fintype.card L = p381 ^ 2) : Nat.card (cubic (evPair u (4, 4))).Point = r381 * cofactor2 := by
  obtain ⟨m, n, h1, h2⟩ := cubic_card (K := L) (by rw [hc]; decide +kernel) (p381_two hp) (p381_three hp) (four2_ne hu hp)
  have ho : addOrderOf (g2Point hp hu) = r381 := addOrderOf_eq_prime (g2Point_killed hp hu) (g2Point_ne hp hu)
  have hd : r381 ∣ Nat.card (cubic (evPair u (4, 4))).Point := ho ▸ addOrderOf_dvd_natCard _
  have hw : Nat.card (cubic (evPair u (4, 4))).Point ≠ wrong2 := by
    intro h
    apply q2Point_ne hp hu
    rw [← h]
    exact card_nsmul_eq_zero'
  have hd' : (Nat.card (cubic (evPair u (4, 4))).Point : ℤ) % (r381 : ℤ) = 0 := Int.emod_eq_zero_of_dvd (Int.natCast_dvd_natCast.mpr hd)
  rw [hc] at h1 h2
  push_cast at h1 h2
  obtain ⟨w, hwm, f, hf, g, hg, hz⟩ := eis_square (Nat.prime_iff_prime_int.mp p381_prime) eis_p381 (z := (m, n)) h1
  have hm : m = (g (f w)).1 := congrArg Prod.fst hz
  have hn : n = (g (f w)).2 := congrArg Prod.snd hz
  rw [hm, hn] at h2
  rcases g2_orders w hwm f hf g hg with h | h | h
  · rw [← h2] at h; exact absurd hd' h
  · rw [← h2] at h; exact absurd (Int.natCast_inj.mp h) hw
  · rw [← h2] at h; exact_mod_cast h

end

section
variable {L : Type} [Field L] [DecidableEq L] {u : L} (f : L →+* L)

/-- `p_power_endomorphism`. -/
def psi2 (hp : (p381 : L) = 0) (hu : u * u = -1) (hf : f u = -u) : (cubic (evPair u (4, 4))).Point →+ (cubic (evPair u (4, 4))).Point :=
  endo f (evPair u (4, 4)) (c := evPair u coeff0) (d := evPair u coeff1) (evPair_ne hu hp g2_constants.2.2.2.2.2.2.1)
    (evPair_ne hu hp g2_constants.2.2.2.2.2.2.2.1)
    (by
      have := evPair_sub hp hu g2_constants.2.2.1
      simp only [(right2 hp hu).mul] at this
      linear_combination this)
    (by
      have := evPair_sub hp hu g2_constants.2.2.2.1
      simp only [(right2 hp hu).mul] at this
      rw [evPair_conj hp f hf g2_constants.2.2.2.2.2.2.2.2.2.2.2.2.2] at this
      linear_combination -this)

variable (hp : (p381 : L) = 0) (hu : u * u = -1) (hf : f u = -u)

theorem psi2_some {x y : L} (h : (cubic (evPair u (4, 4))).Nonsingular x y) :
    ∃ h', psi2 f hp hu hf (.some x y h) = .some (evPair u coeff0 * f x) (evPair u coeff1 * f y) h' := endo_some f _ _ _ _ _ h

theorem psi2_fourth (hff : ∀ x, f (f x) = x) (P : (cubic (evPair u (4, 4))).Point) :
    psi2 f hp hu hf (psi2 f hp hu hf (psi2 f hp hu hf (psi2 f hp hu hf P))) - psi2 f hp hu hf (psi2 f hp hu hf P) + P = 0 := by
  rcases P with _ | ⟨x, y, h⟩
  · refine (?_ : psi2 f hp hu hf (psi2 f hp hu hf (psi2 f hp hu hf (psi2 f hp hu hf 0))) - psi2 f hp hu hf (psi2 f hp hu hf 0) + 0 = 0)
    simp
  · have c0 : evPair u coeff0 * f (evPair u coeff0) = -1 - beta1 := by
      have := evPair_add hp hu g2_constants.2.2.2.2.1
      rw [(right2 hp hu).mul, evPair_conj hp f hf g2_constants.2.2.2.2.2.2.2.2.2.2.2.1] at this
      rw [this, evPair]; push_cast; ring
    have c1 : evPair u coeff1 * f (evPair u coeff1) = -1 := by
      have := evPair_add hp hu g2_constants.2.2.2.2.2.1
      rw [(right2 hp hu).mul, evPair_conj hp f hf g2_constants.2.2.2.2.2.2.2.2.2.2.2.2.1, evPair_one] at this
      exact this
    obtain ⟨w, hw, hw0, hw1⟩ : ∃ w : L, w = -1 - beta1 ∧ w ^ 2 + w + 1 = 0 ∧ w ≠ 1 := by
      obtain ⟨b1, b2⟩ := beta_root (K := L) hp
      refine ⟨_, rfl, by linear_combination b1, fun h => p381_three (K := L) hp ?_⟩
      have hb : (beta1 : L) = -2 := by linear_combination -h
      rw [hb] at b1
      linear_combination b1
    rw [← hw] at c0
    have sq : ∀ {x y : L} (h : (cubic (evPair u (4, 4))).Nonsingular x y),
        ∃ h', psi2 f hp hu hf (psi2 f hp hu hf (.some x y h)) = .some (w * x) (-y) h' := by
      intro x y h
      obtain ⟨h1, e1⟩ := psi2_some f hp hu hf h
      obtain ⟨h2, e2⟩ := psi2_some f hp hu hf h1
      have ex : evPair u coeff0 * f (evPair u coeff0 * f x) = w * x := by
        rw [map_mul, hff, ← c0]; ring
      have ey : evPair u coeff1 * f (evPair u coeff1 * f y) = -y := by
        rw [map_mul, hff]; linear_combination y * c1
      refine ⟨by rw [← ex, ← ey]; exact h2, ?_⟩
      rw [e1, e2, point_inj]
      exact ⟨ex, ey⟩
    obtain ⟨h1, e1⟩ := sq h
    obtain ⟨h2, e2⟩ := sq h1
    rw [e1, e2, sub_eq_add_neg]
    have h1' : (cubic (evPair u (4, 4))).Nonsingular (w * x) y := by
      have := (WeierstrassCurve.Affine.nonsingular_neg _ _).mpr h1
      rwa [cubic_negY, neg_neg] at this
    have h2' : (cubic (evPair u (4, 4))).Nonsingular (w * (w * x)) y := by
      rwa [neg_neg] at h2
    have n1 : (-(.some _ _ h1) : (cubic (evPair u (4, 4))).Point) = .some _ _ h1' := by
      rw [Point.neg_some, point_inj, cubic_negY, neg_neg]
      exact ⟨rfl, rfl⟩
    have n2 : (.some _ _ h2 : (cubic (evPair u (4, 4))).Point) = .some _ _ h2' := point_inj.mpr ⟨rfl, neg_neg y⟩
    rw [n1, n2, ← omega_sum hw0 hw1 h h1' h2']
    abel

theorem psi2_generator : blsX • g2Point hp hu = -psi2 f hp hu hf (g2Point hp hu) := by
  obtain ⟨⟨h1, h2, h3⟩, h4⟩ := g2_run_endo
  obtain ⟨x', y', h', e, ex, ey⟩ := cubic_computed (right2 hp hu) evPair_zero evPair_one (g2_nonsingular hp hu) _ _ rfl (evPair_ne hu hp h1)
  rw [h4] at e
  obtain ⟨h'', e'⟩ := psi2_some f hp hu hf (g2_nonsingular hp hu)
  rw [show g2Point hp hu = .some _ _ (g2_nonsingular hp hu) from rfl, e, e', Point.neg_some, point_inj, cubic_negY]
  have hz := evPair_ne hu hp h1
  have e2 := evPair_sub hp hu h2
  have e3 := evPair_add hp hu h3
  simp only [(right2 hp hu).mul] at e2 e3
  rw [evPair_conj hp f hf g2_constants.2.2.2.2.2.2.2.2.2.1] at e2
  rw [evPair_conj hp f hf g2_constants.2.2.2.2.2.2.2.2.2.2.1] at e3
  constructor
  · refine mul_right_cancel₀ (pow_ne_zero 2 hz) ?_
    rw [← ex, e2]; ring
  · refine mul_right_cancel₀ (pow_ne_zero 3 hz) ?_
    rw [← ey, e3]; ring

theorem psi2_test [Fintype L] (hc : Fintype.card L = p381 ^ 2) (hff : ∀ x, f (f x) = x) (P : (cubic (evPair u (4, 4))).Point) :
    -(blsX • P) = psi2 f hp hu hf P ↔ r381 • P = 0 := by
  constructor
  · intro ht
    have h2 := psi2_fourth f hp hu hf hff P
    have e2 : psi2 f hp hu hf (psi2 f hp hu hf P) = (blsX * blsX) • P := by
      rw [← ht, map_neg, map_nsmul, ← ht, smul_neg, neg_neg, mul_nsmul']
    rw [e2, map_nsmul, map_nsmul, e2, ← mul_nsmul'] at h2
    have h3 : (r381 + blsX * blsX) • P = (blsX * blsX * (blsX * blsX) + 1) • P := by rw [r381_eq]
    rw [add_nsmul, add_nsmul, one_nsmul] at h3
    rw [eq_sub_of_add_eq h3, ← h2]
    abel
  · intro hr
    obtain ⟨k, hk⟩ := killed_multiple g2_cofactor (g2_card hp hu hc) (g2Point_killed hp hu) (g2Point_ne hp hu) hr
    rw [← hk, map_zsmul, ← neg_eq_iff_eq_neg.mpr (psi2_generator f hp hu hf), smul_neg, smul_comm]

end

section
variable {K : Type} [Field K] [DecidableEq K]

instance fq2_fintype [Fintype K] : Fintype (Fq2 K) := Fintype.ofEquiv (K × K) (QuadraticAlgebra.equivProd (-1 : K) 0).symm

theorem fq2_card [Fintype K] (hc : Fintype.card K = p381) : Fintype.card (Fq2 K) = p381 ^ 2 := by
  rw [Fintype.ofEquiv_card, Fintype.card_prod, hc, sq]

theorem fq2_zero (hp : (p381 : K) = 0) : (p381 : Fq2 K) = 0 := by
  ext <;> simp [hp]

variable [Fact (∀ r : K, r ^ 2 ≠ -1 + 0 * r)]

/-- `u` -/
def fq2u : Fq2 K := ⟨0, 1⟩

theorem fq2u_sq : (fq2u : Fq2 K) * fq2u = -1 := by
  ext <;> simp [fq2u] <;> rfl

theorem toFq2_eq (a : Nat × Nat) : (toFq2 a : Fq2 K) = evPair fq2u a := by
  ext <;> simp [toFq2, evPair, fq2u]

variable (K) in
/-- Conjugation. -/
def fq2conj : Fq2 K →+* Fq2 K := starRingEnd (Fq2 K)

theorem fq2conj_u : fq2conj K fq2u = -fq2u := by
  have : (star fq2u : Fq2 K) = -fq2u := by ext <;> simp [fq2u]
  exact this

theorem b2_eq : (⟨4, 4⟩ : Fq2 K) = evPair fq2u (4, 4) := by
  rw [← toFq2_eq]; rfl

/-- The test for the second group is exact on the points of the curve. -/
theorem inG2_iff [Fintype K] (hc : Fintype.card K = p381) (P : (cubic (⟨4, 4⟩ : Fq2 K)).Point) : inG2 (coordsOf P) = true ↔ r381 • P = 0 := by
  have hp : (p381 : K) = 0 := by rw [← hc]; exact FiniteField.cast_card_eq_zero K
  have hp2 := fq2_zero hp
  obtain ⟨b, hb, hb'⟩ : ∃ b : Fq2 K, b = ⟨4, 4⟩ ∧ b = evPair fq2u (4, 4) := ⟨_, rfl, b2_eq⟩
  revert P
  rw [← hb, hb']
  intro P
  rw [← psi2_test (fq2conj K) hp2 fq2u_sq fq2conj_u (fq2_card hc) (fun x => star_star x)]
  rcases hP : P with _ | ⟨x, y, h⟩
  · refine ⟨fun _ => ?_, fun _ => onOwn_zero _ rfl⟩
    exact (by simp : -(blsX • (0 : (cubic (evPair fq2u (4, 4) : Fq2 K)).Point)) = psi2 (fq2conj K) hp2 fq2u_sq fq2conj_u 0)
  · rw [← hP, inG2, show coordsOf P = ⟨x, y, false⟩ by rw [hP]; rfl, onOwn_some _ h, ← hP]
    obtain ⟨h', e⟩ := psi2_some (fq2conj K) hp2 fq2u_sq fq2conj_u h
    rw [← hP] at e
    simp only [toFq2_eq]
    exact (sameAs_iff _ h').trans (by rw [e])

theorem g2_card' [Fintype K] (hc : Fintype.card K = p381) : Nat.card (cubic (⟨4, 4⟩ : Fq2 K)).Point = r381 * cofactor2 := by
  have hp : (p381 : K) = 0 := by rw [← hc]; exact FiniteField.cast_card_eq_zero K
  rw [b2_eq]
  exact g2_card (fq2_zero hp) fq2u_sq (fq2_card hc)

end
end GS
