import Verif.Lemmas.FinalExp
import Verif.Lemmas.Ate

/-! # The groups of BLS12-381 on the curve over the target field -/

open Polynomial

namespace GS

/-- Powers of pairs. -/
def pairPow (m : Nat) : Nat → Nat × Nat → Nat → Nat × Nat
  | 0, _, _ => (1, 0)
  | f + 1, b, e => (pairOps m).mul (if Nat.beq (e % 2) 1 then b else (1, 0)) (pairPow m f ((pairOps m).mul b b) (e / 2))

theorem pairPow_eq {L : Type} [Field L] [DecidableEq L] {u : L} (hp : (p381 : L) = 0) (hu : u * u = -1) (f : Nat) :
    ∀ b e, e < 2 ^ f → evPair u (pairPow p381 f b e) = evPair u b ^ e := by
  induction f with
  | zero =>
    intro b e h
    have : e = 0 := by simpa using h
    rw [this, pow_zero]
    exact evPair_one
  | succ f ih =>
    intro b e h
    rw [pairPow, (right2 hp hu).mul, ih _ _ (by rw [Nat.pow_succ] at h; omega), (right2 hp hu).mul]
    have hb : evPair u (if Nat.beq (e % 2) 1 = true then b else (1, 0)) = evPair u b ^ (e % 2) := by
      rcases Nat.mod_two_eq_zero_or_one e with h | h <;> rw [h]
      · rw [if_neg (by decide), pow_zero]; exact evPair_one
      · rw [if_pos (by decide), pow_one]
    rw [hb, ← pow_two, ← pow_mul, ← pow_add]
    congr 1
    omega

theorem coeff_powers : let o := pairOps p381
    o.isZero (o.sub (o.mul coeff0 (pairPow p381 381 (1, 1) ((p381 - 1) / 3))) (1, 0)) = true ∧
    o.isZero (o.sub (o.mul coeff1 (pairPow p381 381 (1, 1) ((p381 - 1) / 2))) (1, 0)) = true ∧
    2 * p381 = 2 + 6 * ((p381 - 1) / 3) ∧ 3 * p381 = 3 + 6 * ((p381 - 1) / 2) ∧ 4 ∣ finalExp ∧ (finalExp * (blsX + p381)) % (p381 ^ 12 - 1) = 0 ∧
    fromBits 1 loopBits = blsX ∧ Nat.Coprime 3 r381 ∧ Nat.Coprime 2 r381 := by decide +kernel

noncomputable instance fq12_decEq (K : Type) [Field K] : DecidableEq (Fq12 K) := Classical.decEq _

section
variable {K : Type} [Field K] [DecidableEq K] [Fintype K] [Fact (∀ r : K, r ^ 2 ≠ -1 + 0 * r)] [Fact (Irreducible (X ^ 3 - C (xiFq6 K)))]
  [Fact (∀ b : Fq6 K, b ^ 2 ≠ xiFq12 K + 0 * b)]

theorem rootW_six : rootW K ^ 6 = inj2 K (xiFq6 K) := by
  rw [show rootW K ^ 6 = (rootW K * rootW K) ^ 3 by ring, rootW_sq, ← map_pow, v_cube]
  rfl

theorem rootW_ne : rootW K ≠ 0 := fun h => by
  have := rootW_sq (K := K)
  rw [h, zero_mul] at this
  exact v_ne (K := K) ((algebraMap (Fq6 K) (Fq12 K)).injective (by rw [← this, map_zero]))

theorem hb1 : (4 : Fq12 K) = 1 ^ 6 * inj1 K 4 := by rw [map_ofNat, one_pow, one_mul]

theorem hb2 : (4 : Fq12 K) = (rootW K)⁻¹ ^ 6 * inj2 K ⟨4, 4⟩ := by
  have : (⟨4, 4⟩ : Fq2 K) = 4 * xiFq6 K := by
    have h4 : (4 : Fq2 K) = algebraMap K (Fq2 K) 4 := (map_ofNat _ 4).symm
    rw [h4]
    ext <;> simp [xiFq6]
  rw [this, map_mul, ← rootW_six, map_ofNat, inv_pow, mul_comm, mul_assoc, mul_inv_cancel₀ (pow_ne_zero _ rootW_ne), mul_one]

variable (K) in
/-- The points of the first curve. -/
noncomputable def up1 : (cubic (4 : K)).Point →+ (cubic (4 : Fq12 K)).Point := twist (inj1 K) 1 one_ne_zero 4 hb1

variable (K) in
/-- The points of the second curve. -/
noncomputable def up2 : (cubic (⟨4, 4⟩ : Fq2 K)).Point →+ (cubic (4 : Fq12 K)).Point := twist (inj2 K) (rootW K)⁻¹ (inv_ne_zero rootW_ne) ⟨4, 4⟩ hb2

theorem up1_some {x y : K} (h : (cubic (4 : K)).Nonsingular x y) : ∃ h', up1 K (.some x y h) = .some (inj1 K x) (inj1 K y) h' := by
  have h' := twist_nonsingular (inj1 K) 1 one_ne_zero 4 hb1 h
  have e : up1 K (.some x y h) = .some _ _ h' := twist_some (inj1 K) 1 one_ne_zero 4 hb1 h
  simp only [one_pow, one_mul] at h' e
  exact ⟨h', e⟩

theorem up2_some {x y : Fq2 K} (h : (cubic (⟨4, 4⟩ : Fq2 K)).Nonsingular x y) :
    ∃ h', up2 K (.some x y h) = .some ((rootW K)⁻¹ ^ 2 * inj2 K x) ((rootW K)⁻¹ ^ 3 * inj2 K y) h' :=
  ⟨_, twist_some (inj2 K) (rootW K)⁻¹ (inv_ne_zero rootW_ne) ⟨4, 4⟩ hb2 h⟩

theorem up1_injective : Function.Injective (up1 K) := by
  rw [injective_iff_map_eq_zero]
  rintro (_ | ⟨x, y, h⟩) h0
  · rfl
  · obtain ⟨h', e⟩ := up1_some h
    rw [e] at h0
    cases h0

variable (hc : Fintype.card K = p381)
include hc

/-- No point of the subgroup has `x = 0`. -/
theorem x_ne {x y : K} (h : (cubic (4 : K)).Nonsingular x y) (hr : r381 • (.some x y h : (cubic (4 : K)).Point) = 0) : x ≠ 0 := by
  rintro rfl
  have hp := fq_zero hc
  obtain ⟨h', e⟩ := phi1_some hp h
  have e' : phi1 K hp (.some 0 y h) = .some 0 y h := by rw [e]; exact point_eq _ (mul_zero _) rfl
  have hs := phi1_sum hp (.some 0 y h)
  rw [e', e', ← two_smul ℕ, ← succ_nsmul] at hs
  have := (Nat.Coprime.eq_one_of_dvd coeff_powers.2.2.2.2.2.2.2.1.symm) 
  have h3 : addOrderOf (.some 0 y h : (cubic (4 : K)).Point) ∣ Nat.gcd 3 r381 := Nat.dvd_gcd (addOrderOf_dvd_of_nsmul_eq_zero hs) (addOrderOf_dvd_of_nsmul_eq_zero hr)
  rw [coeff_powers.2.2.2.2.2.2.2.1] at h3
  have h1 := AddMonoid.addOrderOf_eq_one_iff.mp (Nat.dvd_one.mp h3)
  cases h1

/-- Verticals do not survive the final exponentiation. -/
theorem vert_dies (A : (cubic (⟨4, 4⟩ : Fq2 K)).Point) (P : (cubic (4 : K)).Point) (hP : r381 • P = 0) : vertOn (up2 K A) (up1 K P) ^ finalExp = 1 := by
  rcases P with _ | ⟨x, y, h⟩
  · exact one_pow _
  obtain ⟨h', e⟩ := up1_some h
  rw [e]
  rcases A with _ | ⟨a, b, k⟩
  · exact one_pow _
  obtain ⟨k', f⟩ := up2_some k
  rw [f]
  have hx := x_ne hc h hP
  show (inj1 K x - (rootW K)⁻¹ ^ 2 * inj2 K a) ^ finalExp = 1
  have e1 : inj1 K x - (rootW K)⁻¹ ^ 2 * inj2 K a = algebraMap (Fq6 K) (Fq12 K) ((xiFq12 K)⁻¹ * mkFq6 (-a, algebraMap K (Fq2 K) x, 0)) := by
    rw [mkFq6_eq, map_mul, map_inv₀, ← rootW_sq]
    simp only [map_add, map_mul, map_zero, map_neg, zero_mul, add_zero, ← rootW_sq]
    have hw := rootW_ne (K := K)
    have i1 : algebraMap (Fq6 K) (Fq12 K) (algebraMap (Fq2 K) (Fq6 K) (algebraMap K (Fq2 K) x)) = inj1 K x := rfl
    have i2 : algebraMap (Fq6 K) (Fq12 K) (algebraMap (Fq2 K) (Fq6 K) a) = inj2 K a := rfl
    rw [i1, i2]
    field_simp
    ring
  rw [e1]
  apply fq6_dies hc
  apply mul_ne_zero (inv_ne_zero v_ne)
  intro h0
  have : mkFq6 (-a, algebraMap K (Fq2 K) x, 0) = mkFq6 (K := K) (0, 0, 0) := by rw [h0, mkFq6_eq]; simp
  have := mkFq6_bijective.1 this
  simp only [Prod.mk.injEq] at this
  exact hx ((algebraMap K (Fq2 K)).injective (by rw [this.2.1, map_zero]))

/-- The Frobenius endomorphism of the target field. -/
noncomputable def frob12 : Fq12 K →+* Fq12 K :=
  have := char12 hc
  have : ExpChar (Fq12 K) p381 := ExpChar.prime p381_prime
  frobenius (Fq12 K) p381

theorem frob12_pow (x : Fq12 K) : frob12 hc x = x ^ p381 := rfl

theorem fq_frob (x : K) : x ^ p381 = x := by rw [← hc]; exact FiniteField.pow_card x

theorem frob12_four : frob12 hc (4 : Fq12 K) = 4 := map_ofNat _ 4

theorem up1_fixed (P : (cubic (4 : K)).Point) : twist (frob12 hc) 1 one_ne_zero 4 (frob_hb (frob12_four hc)) (up1 K P) = up1 K P := by
  rcases P with _ | ⟨x, y, h⟩
  · rfl
  · obtain ⟨h', e⟩ := up1_some h
    rw [e, twist_some]
    apply point_eq
    · rw [frob12_pow, ← map_pow, fq_frob hc, one_pow, one_mul]
    · rw [frob12_pow, ← map_pow, fq_frob hc, one_pow, one_mul]

theorem fq2_star (x : Fq2 K) : star x = x ^ p381 := by
  have h1 : CharP K p381 := (CharP.charP_iff_prime_eq_zero p381_prime).mpr (fq_zero hc)
  have : CharP (Fq2 K) p381 := charP_of_injective_ringHom (algebraMap K (Fq2 K)).injective p381
  have : Fact p381.Prime := p381_fact
  have e : x = algebraMap K (Fq2 K) x.re + algebraMap K (Fq2 K) x.im * fq2u := by
    ext <;> simp [fq2u]
  have hu : (fq2u : Fq2 K) ^ p381 = -fq2u := by
    have e : p381 = 2 * ((p381 - 1) / 2) + 1 ∧ (p381 - 1) / 2 % 2 = 1 := by decide +kernel
    conv_lhs => rw [e.1]
    rw [pow_succ, pow_mul, sq, fq2u_sq, (Nat.odd_iff.mpr e.2).neg_one_pow, neg_one_mul]
  conv_rhs => rw [e, add_pow_char, mul_pow, ← map_pow, ← map_pow, fq_frob hc, fq_frob hc, hu]
  ext <;> simp [fq2u]

theorem coeff_w : inj2 K (toFq2 coeff0) * (rootW K) ^ (2 * p381) = rootW K ^ 2 ∧ inj2 K (toFq2 coeff1) * (rootW K) ^ (3 * p381) = rootW K ^ 3 := by
  have hp := fq2_zero (fq_zero hc)
  have hu := fq2u_sq (K := K)
  have hxi : (xiFq6 K) = evPair fq2u (1, 1) := by rw [← toFq2_eq]; simp [toFq2, xiFq6]
  have h0 := evPair_sub hp hu coeff_powers.1
  have h1 := evPair_sub hp hu coeff_powers.2.1
  rw [(right2 hp hu).mul, pairPow_eq hp hu _ _ _ (by decide +kernel), evPair_one, ← hxi, ← toFq2_eq] at h0 h1
  constructor
  · rw [coeff_powers.2.2.1, pow_add, pow_mul, rootW_six, ← map_pow, mul_left_comm, ← map_mul, h0, map_one, mul_one]
  · rw [coeff_powers.2.2.2.1, pow_add, pow_mul, rootW_six, ← map_pow, mul_left_comm, ← map_mul, h1, map_one, mul_one]

theorem up2_eigen (A : (cubic (⟨4, 4⟩ : Fq2 K)).Point) (hA : r381 • A = 0) :
    up2 K (blsX • A) = -twist (frob12 hc) 1 one_ne_zero 4 (frob_hb (frob12_four hc)) (up2 K A) := by
  suffices key : up2 K (-(blsX • A)) = twist (frob12 hc) 1 one_ne_zero 4 (frob_hb (frob12_four hc)) (up2 K A) by
    generalize blsX = n at key ⊢
    rw [← key, map_neg (up2 K), neg_neg]
  have h := (inG2_iff hc A).mpr hA
  rcases hE : A with _ | ⟨x, y, k⟩
  · clear h
    generalize blsX = n
    exact (by rw [nsmul_zero, neg_zero, map_zero, map_zero] :
      up2 K (-(n • (0 : (cubic (⟨4, 4⟩ : Fq2 K)).Point))) = twist (frob12 hc) 1 one_ne_zero 4 (frob_hb (frob12_four hc)) (up2 K 0))
  · rw [inG2, show coordsOf A = ⟨x, y, false⟩ by rw [hE]; rfl, onOwn_some _ k, ← hE] at h
    rw [← hE]
    obtain ⟨k', f⟩ : ∃ k', -(blsX • A) = .some (toFq2 coeff0 * star x) (toFq2 coeff1 * star y) k' := by
      generalize -(blsX • A) = B at h
      rcases B with _ | ⟨x', y', k'⟩
      · cases h
      · have := of_decide_eq_true h
        obtain ⟨rfl, rfl⟩ := this
        exact ⟨k', rfl⟩
    obtain ⟨q, g⟩ := up2_some k
    obtain ⟨q', g'⟩ := up2_some k'
    rw [f, g', hE, g, twist_some]
    have hw := rootW_ne (K := K)
    obtain ⟨w0, w1⟩ := coeff_w (K := K) hc
    rw [mul_comm 2, pow_mul'] at w0
    rw [mul_comm 3, pow_mul'] at w1
    apply point_eq
    · rw [fq2_star hc, map_mul, map_pow, one_pow, one_mul, frob12_pow, mul_pow, inv_pow, inv_pow, ← mul_assoc]
      refine congrArg (· * _) ?_
      rw [inv_mul_eq_iff_eq_mul₀ (pow_ne_zero _ hw)]
      exact (eq_mul_inv_iff_mul_eq₀ (pow_ne_zero _ (pow_ne_zero _ hw))).mpr w0
    · rw [fq2_star hc, map_mul, map_pow, one_pow, one_mul, frob12_pow, mul_pow, inv_pow, inv_pow, ← mul_assoc]
      refine congrArg (· * _) ?_
      rw [inv_mul_eq_iff_eq_mul₀ (pow_ne_zero _ hw)]
      exact (eq_mul_inv_iff_mul_eq₀ (pow_ne_zero _ (pow_ne_zero _ hw))).mpr w1

omit hc
variable (K) in
/-- The first group. -/
abbrev Tor1 : AddSubgroup (cubic (4 : K)).Point := (nsmulAddMonoidHom r381).ker

variable (K) in
/-- The second group. -/
abbrev Tor2 : AddSubgroup (cubic (⟨4, 4⟩ : Fq2 K)).Point := (nsmulAddMonoidHom r381).ker

/-- The groups of BLS12-381 and its exponents. -/
noncomputable def blsAte (hc : Fintype.card K = p381) : Ate (4 : Fq12 K) (Tor1 K) (Tor2 K) where
  M := finalExp
  p := p381
  n := blsX
  four := coeff_powers.2.2.2.2.1
  e1 := (up1 K).comp (Tor1 K).subtype
  e2 := (up2 K).comp (Tor2 K).subtype
  inj1 := up1_injective.comp Subtype.val_injective
  odd1 P h := by
    have h2 : 2 • P.1 = 0 := by rw [two_smul]; exact congrArg Subtype.val h
    have hr : r381 • P.1 = 0 := P.2
    have h3 : addOrderOf P.1 ∣ Nat.gcd 2 r381 := Nat.dvd_gcd (addOrderOf_dvd_of_nsmul_eq_zero h2) (addOrderOf_dvd_of_nsmul_eq_zero hr)
    rw [coeff_powers.2.2.2.2.2.2.2.2] at h3
    exact Subtype.ext (AddMonoid.addOrderOf_eq_one_iff.mp (Nat.dvd_one.mp h3))
  vert A P _ := vert_dies hc A.1 P.1 P.2
  frob := frob12 hc
  frob_pow := frob12_pow hc
  frob_b := frob12_four hc
  fixed P := up1_fixed hc P.1
  eigen A := up2_eigen hc A.1 A.2
  unity x hx := by
    rw [← pow_mul]
    have h0 : x ≠ 0 := by
      rintro rfl
      exact hx (zero_pow (by decide +kernel))
    exact (pow_eq_of_mod (b := 0) (fq12_unit hc h0) (by rw [coeff_powers.2.2.2.2.2.1]; rfl)).trans (pow_zero _)
  bits := loopBits
  bits_n := coeff_powers.2.2.2.2.2.2.1

end
end GS
