import Verif.Lemmas.Coord
import Verif.Lemmas.RawVerify
import Verif.Lemmas.Bls381
import Verif.Model.Generator

/-! # What represents points and elements of the target group -/

set_option linter.unusedSectionVars false

open Polynomial

namespace GS

section points
variable {K : Type} [Field K] [DecidableEq K] {b : K} {r : Nat} [NeZero r] [MulProjective (ZMod r) K]

theorem val_smul {H A : Type} [AddCommGroup H] [Module (ZMod r) H] [AddCommGroup A] (i : H →+ A) (a : ZMod r) (x : H) : i (a • x) = a.val • i x := by
  rw [← map_nsmul, ← Nat.cast_smul_eq_nsmul (ZMod r), ZMod.natCast_zmod_val]

theorem smul_of {H : Type} [AddCommGroup H] [Module (ZMod r) H] (i : H →+ (cubic b).Point) (hm : Multiplies r fun p => ∃ x, i x = p) {P : Projective K} {x : H}
    (h : P.Of (i x)) (a : ZMod r) : (MulProjective.mul P a).Of (i (a • x)) := by
  rw [val_smul]
  exact hm P _ ⟨x, rfl⟩ h a

theorem coords_carries (h2 : (2 : K) ≠ 0) {H : Type} [AddCommGroup H] [Module (ZMod r) H] (i : H →+ (cubic b).Point)
    (hm : Multiplies r fun p => ∃ x, i x = p) : Carries (ZMod r) fun x => coordsOf (i x) where
  zero := by rw [map_zero]; rfl
  add x y := by
    rw [map_add]
    exact (Projective.intoAffine_of (Projective.addAffine_of h2 (Projective.intoGroup_of _))).symm
  smul a x := (Projective.intoAffine_of (smul_of i hm (Projective.intoGroup_of (i x)) a)).symm

omit [NeZero r] [MulProjective (ZMod r) K] in
theorem doubleAndAdd_multiplies (h2 : (2 : K) ≠ 0) (S : (cubic b).Point → Prop) :
    letI := doubleAndAdd r K
    Multiplies r S := fun P p _ h a => Projective.mulNat_of h2 h a.val

end points

theorem glvMethod_multiplies {K : Type} [Field K] [DecidableEq K] [Fintype K] (hc : Fintype.card K = p381) :
    letI := glvMethod K
    Multiplies r381 fun p : (cubic (4 : K)).Point => r381 • p = 0 := fun P p hr h a => Projective.glv_killed hc h hr (ZMod.val_lt a)

section crs
variable {r : Nat} [NeZero r] [Fact r.Prime] {K1 K2 : Type} [Field K1] [DecidableEq K1] [Field K2] [DecidableEq K2] {b1 : K1} {b2 : K2}
  [MulProjective (ZMod r) K1] [MulProjective (ZMod r) K2] {H1 H2 GT RT : Type} [AddCommGroup H1] [Module (ZMod r) H1] [AddCommGroup H2] [Module (ZMod r) H2]
  [AddCommGroup GT] [Module (ZMod r) GT] {e : H1 →ₗ[ZMod r] H2 →ₗ[ZMod r] GT} {pair : Affine K1 → Affine K2 → RT} {jT : GT → RT}

theorem assemble_of (h21 : (2 : K1) ≠ 0) (h22 : (2 : K2) ≠ 0) (i1 : H1 →+ (cubic b1).Point) (i2 : H2 →+ (cubic b2).Point)
    (hm1 : Multiplies r fun p => ∃ x, i1 x = p) (hm2 : Multiplies r fun p => ∃ x, i2 x = p)
    (he : PairsRep pair (fun x y => e x y) (fun x => coordsOf (i1 x)) (fun x => coordsOf (i2 x)) jT)
    {P1 : Projective K1} {P2 : Projective K2} {p1 : H1} {p2 : H2} (h1 : P1.Of (i1 p1)) (h2 : P2.Of (i2 p2)) (a1 a2 t1 t2 : ZMod r) :
    assembleCoord pair prepareRealCoord P1 P2 a1 a2 t1 t2 =
      (assembleCrs e prepareRealBindingKey p1 p2 a1 a2 t1 t2).rep (fun x => coordsOf (i1 x)) (fun x => coordsOf (i2 x)) jT ∧
    assembleCoord pair prepareSimulatedCoord P1 P2 a1 a2 t1 t2 =
      (assembleCrs e prepareSimulatedHidingKey p1 p2 a1 a2 t1 t2).rep (fun x => coordsOf (i1 x)) (fun x => coordsOf (i2 x)) jT := by
  have q1 := smul_of i1 hm1 h1 a1
  have q2 := smul_of i2 hm2 h2 a2
  have u1 := smul_of i1 hm1 h1 t1
  have u2 := smul_of i2 hm2 h2 t2
  have v1 := Projective.sub_of h21 (smul_of i1 hm1 q1 t1) (Projective.of_zero.mpr (rfl : (Projective.zero : Projective K1).z = 0))
  have v2 := Projective.sub_of h22 (smul_of i2 hm2 q2 t2) (Projective.of_zero.mpr (rfl : (Projective.zero : Projective K2).z = 0))
  have w1 := Projective.sub_of h21 (smul_of i1 hm1 q1 t1) h1
  have w2 := Projective.sub_of h22 (smul_of i2 hm2 q2 t2) h2
  rw [sub_zero] at v1 v2
  rw [← map_sub] at w1 w2
  have hg : pair (coordsOf (i1 p1)) (coordsOf (i2 p2)) = jT (e p1 p2) := he p1 p2
  constructor
  · unfold assembleCoord prepareRealCoord
    simp only [hg, Projective.intoAffine_of h1, Projective.intoAffine_of h2, Projective.intoAffine_of q1, Projective.intoAffine_of q2, Projective.intoAffine_of u1,
      Projective.intoAffine_of u2, Projective.intoAffine_of v1, Projective.intoAffine_of v2, assembleCrs, prepareRealBindingKey, sub_zero]
    rfl
  · unfold assembleCoord prepareSimulatedCoord
    simp only [hg, Projective.intoAffine_of h1, Projective.intoAffine_of h2, Projective.intoAffine_of q1, Projective.intoAffine_of q2, Projective.intoAffine_of u1,
      Projective.intoAffine_of u2, Projective.intoAffine_of w1, Projective.intoAffine_of w2, assembleCrs, prepareSimulatedHidingKey]
    rfl

end crs

section target
variable {K : Type} [Field K]

theorem gtOut_adds : AddsRep (gtOut (K := K)) where
  injective x y h := Additive.toMul.injective (Subtype.ext (Units.ext h))
  zero := rfl
  add _ _ := rfl

theorem r381_coprime : Nat.gcd r381 (p381 ^ 6 - 1) = 1 := by decide +kernel

variable [DecidableEq K] [Fintype K] [Fact (∀ r : K, r ^ 2 ≠ -1 + 0 * r)] (hc : Fintype.card K = p381)
include hc

theorem norm_one (f : Fq12 K) (h : f ^ r381 = 1) : f * star f = 1 := by
  haveI : Fact (Irreducible (X ^ 3 - C (xiFq6 K))) := ⟨xi_irreducible hc⟩
  have hn : f.norm ^ r381 = 1 := by rw [← map_pow, h, QuadraticAlgebra.norm_one]
  have h0 : f.norm ≠ 0 := fun h0 => by
    rw [h0, zero_pow (by decide +kernel)] at hn
    exact zero_ne_one hn
  haveI : Finite (Fq6 K) := Nat.finite_of_card_ne_zero (by rw [fq6_card hc]; decide +kernel)
  haveI := Fintype.ofFinite (Fq6 K)
  have hp : f.norm ^ (p381 ^ 6 - 1) = 1 := by
    rw [← fq6_card hc, Nat.card_eq_fintype_card]
    exact FiniteField.pow_card_sub_one_eq_one _ h0
  have h1 : f.norm ^ Nat.gcd r381 (p381 ^ 6 - 1) = 1 := pow_gcd_eq_one.mpr ⟨hn, hp⟩
  rw [r381_coprime, pow_one] at h1
  rw [← QuadraticAlgebra.algebraMap_norm_eq_mul_star, h1, map_one]

theorem gtOut_neg (x : Gt K) : gtOut (-x) = -gtOut x := by
  have hx := congrArg Units.val ((mem_rootsOfUnity _ _).mp (Additive.toMul x).2)
  rw [Units.val_pow_eq_pow_val] at hx
  have h := norm_one hc (gtRep x) hx
  have h' : gtRep (-x) * gtRep x = (1 : Fq12 K) := congrArg (fun u => gtRep u) (neg_add_cancel x)
  show gtRep (-x) = star (gtRep x)
  calc gtRep (-x) = gtRep (-x) * (gtRep x * star (gtRep x)) := by rw [h, mul_one]
    _ = star (gtRep x) := by rw [← mul_assoc, h', one_mul]

theorem gtOut_sub (x y : Gt K) : gtOut (x - y) = gtOut x - gtOut y := by
  rw [sub_eq_add_neg]
  have h : gtRep (-y) = star (gtRep y) := gtOut_neg hc y
  show gtRep x * gtRep (-y) = gtRep x * star (gtRep y)
  rw [h]

theorem two_conj : (2 : Fq12 K) * star 2 ≠ 1 := by
  haveI : Fact (Irreducible (X ^ 3 - C (xiFq6 K))) := ⟨xi_irreducible hc⟩
  have hs : star (2 : Fq12 K) = 2 := by
    have h1 : star (1 : Fq12 K) = 1 := by ext <;> simp
    have h2 : (2 : Fq12 K) = 1 + 1 := by norm_num
    rw [h2, star_add, h1]
  rw [hs]
  intro h
  have h3 : (3 : Fq6 K) = 0 := by
    have := congrArg QuadraticAlgebra.re (sub_eq_zero.mpr h)
    rw [show (2 : Fq12 K) * 2 - 1 = 3 by norm_num] at this
    exact this
  have hp : ((p381 : Nat) : Fq6 K) = 0 := by
    have := congrArg (algebraMap K (Fq6 K)) (fq_zero hc)
    rw [map_natCast, map_zero] at this
    exact this
  rw [show p381 = 3 * (p381 / 3) + 1 by decide +kernel, Nat.cast_add, Nat.cast_mul, Nat.cast_ofNat, h3, zero_mul, zero_add, Nat.cast_one] at hp
  exact one_ne_zero hp

end target

section groups
variable {K : Type} [Field K] [DecidableEq K] [Fintype K] (hc : Fintype.card K = p381) (le : K → K → Bool)

/-- The first group as points of `y² = x³ + 4`. -/
noncomputable def incl1 : (g1Curve le).torsion r381 →+ (cubic (4 : K)).Point := ((g1Curve le).torsion r381).subtype

theorem incl1_rep (x : (g1Curve le).torsion r381) : (g1Curve le).rep r381 x = coordsOf (incl1 le x) := g1Curve_coords le x.1

theorem incl1_killed (p : (cubic (4 : K)).Point) : (∃ x, incl1 le x = p) ↔ r381 • p = 0 := ⟨fun ⟨x, h⟩ => h ▸ x.2, fun h => ⟨⟨p, h⟩, rfl⟩⟩

variable [Fact (∀ r : K, r ^ 2 ≠ -1 + 0 * r)]

/-- The second group as points of `y² = x³ + 4 (1 + u)`. -/
noncomputable def incl2 : (g2Curve le).torsion r381 →+ (cubic (⟨4, 4⟩ : Fq2 K)).Point := ((g2Curve le).torsion r381).subtype

theorem incl2_rep (x : (g2Curve le).torsion r381) : (g2Curve le).rep r381 x = coordsOf (incl2 le x) := g2Curve_coords x.1

theorem incl2_killed (p : (cubic (⟨4, 4⟩ : Fq2 K)).Point) : (∃ x, incl2 le x = p) ↔ r381 • p = 0 := ⟨fun ⟨x, h⟩ => h ▸ x.2, fun h => ⟨⟨p, h⟩, rfl⟩⟩

include hc

theorem fq2_two : (2 : Fq2 K) ≠ 0 := fun h => p381_two (fq_zero hc) (congrArg QuadraticAlgebra.re h)

theorem fq2_three : (3 : Fq2 K) ≠ 0 := fun h => p381_three (fq_zero hc) (congrArg QuadraticAlgebra.re h)

theorem sampled1 (p : (g1Curve le).curve.Point) :
    (((g1Curve le).coords p).mulNat cofactor1).Of (incl1 le ((g1Curve le).byCofactor r381 cofactor1 ((g1Curve le).coords p))) := by
  have e1 : incl1 le ((g1Curve le).byCofactor r381 cofactor1 ((g1Curve le).coords p)) = cofactor1 • p := byCofactor_coords (g1Curve_card hc le) p
  rw [e1, g1Curve_coords]
  exact Projective.affine_mulNat_of (p381_two (fq_zero hc)) _ _

theorem sampled2 (p : (g2Curve le).curve.Point) :
    (((g2Curve le).coords p).mulNat cofactor2).Of (incl2 le ((g2Curve le).byCofactor r381 cofactor2 ((g2Curve le).coords p))) := by
  have e1 : incl2 le ((g2Curve le).byCofactor r381 cofactor2 ((g2Curve le).coords p)) = cofactor2 • p := byCofactor_coords (g2Curve_card hc le) p
  rw [e1, g2Curve_coords]
  exact Projective.affine_mulNat_of (fq2_two hc) _ _

end groups

end GS
