import Verif.Lemmas.CoordRep
import Verif.Props.Target
import Verif.Props.RawProve

/-!
# C122: points as coordinates

What the library computes with affine and Jacobian coordinates is what the other properties say of the points.
-/

set_option linter.unusedSectionVars false

namespace GS
open WeierstrassCurve.Affine

section formulas
variable {K : Type} [Field K] [DecidableEq K] {b : K}

/-- C122: which coordinates are those of a point. They are those of one point only, and every point has coordinates. -/
theorem C122_coordinates (h2 : (2 : K) ≠ 0) (h3 : (3 : K) ≠ 0) (hb : b ≠ 0) (P : Projective K) :
    ((∃ p : (cubic b).Point, P.Of p) ↔ P.z = 0 ∨ P.y ^ 2 = P.x ^ 3 + b * P.z ^ 6) ∧
    (∀ p q : (cubic b).Point, P.Of p → P.Of q → p = q) ∧ ∀ p : (cubic b).Point, (coordsOf p).intoGroup.Of p := by
  refine ⟨⟨?_, ?_⟩, fun p q hp hq => hp.eq hq, Projective.intoGroup_of⟩
  · rintro ⟨_ | ⟨x, y, h⟩, hp⟩
    · exact .inl hp
    · have h' : y ^ 2 = x ^ 3 + b := by
        have := (equation_iff _ _).mp h.1
        simp only [cubic] at this
        linear_combination this
      right
      rw [hp.2.1, hp.2.2]
      linear_combination P.z ^ 6 * h'
  · rintro (h | h)
    · exact ⟨0, h⟩
    · by_cases hz : P.z = 0
      · exact ⟨0, hz⟩
      have hn : (cubic b).Nonsingular (P.x / P.z ^ 2) (P.y / P.z ^ 3) := by
        refine cubic_smooth h2 h3 hb ?_
        field_simp
        linear_combination h
      refine ⟨.some _ _ hn, hz, ?_, ?_⟩ <;> field_simp

/-- C122: the formulas for coordinates are right for all points of the curve, equal, opposite and zero ones included. -/
theorem C122_formulas (h2 : (2 : K) ≠ 0) {P Q : Projective K} {p q : (cubic b).Point} (hP : P.Of p) (hQ : Q.Of q) :
    P.double.Of (p + p) ∧ (P.add Q).Of (p + q) ∧ (P.addAffine (coordsOf q)).Of (p + q) ∧ P.neg.Of (-p) ∧ (P.sub Q).Of (p - q) ∧
    (P.same Q = true ↔ p = q) ∧ P.intoAffine = coordsOf p :=
  ⟨Projective.double_of h2 hP, Projective.add_of h2 hP hQ, Projective.addAffine_of h2 hP, Projective.neg_of hP, Projective.sub_of h2 hP hQ,
    Projective.same_of hP hQ, Projective.intoAffine_of hP⟩

/-- C122: so is doubling and adding, for multiples of any size. -/
theorem C122_multiplication (h2 : (2 : K) ≠ 0) {P : Projective K} {p : (cubic b).Point} (hP : P.Of p) (n : Nat) :
    (P.mulNat n).Of (n • p) ∧ ((coordsOf p).mulNat n).Of (n • p) :=
  ⟨Projective.mulNat_of h2 hP n, Projective.affine_mulNat_of h2 p n⟩

/-- C122: what `Com1` and `Com2` do with affine coordinates. -/
theorem C122_sums (h2 : (2 : K) ≠ 0) (r : Nat) (p q : (cubic b).Point) :
    coordsOf p + coordsOf q = coordsOf (p + q) ∧ -coordsOf p = coordsOf (-p) ∧ (0 : Affine K) = coordsOf (0 : (cubic b).Point) ∧
    letI := doubleAndAdd r K
    ∀ a : ZMod r, a • coordsOf p = coordsOf (a.val • p) :=
  ⟨Projective.intoAffine_of (Projective.addAffine_of h2 (Projective.intoGroup_of p)), Projective.intoAffine_of (Projective.neg_of (Projective.intoGroup_of p)), rfl,
    fun a => Projective.intoAffine_of (Projective.mulNat_of h2 (Projective.intoGroup_of p) a.val)⟩

end formulas

section glv

/-- C122: how the scalar is split. -/
theorem C122_split {k : Nat} (hk : k < r381) :
    (glvSplit k).1 - (blsX * blsX : Nat) * (glvSplit k).2 = k ∧ (glvSplit k).1.natAbs ≤ blsX * blsX ∧ (glvSplit k).2.natAbs ≤ blsX * blsX :=
  glvSplit_eq hk

variable {K : Type} [Field K] [DecidableEq K] [Fintype K] (hc : Fintype.card K = p381)
include hc

/-- C122: on the first group of BLS12-381 the method of Gallant, Lambert and Vanstone multiplies by all scalars. -/
theorem C122_glv {P : Projective K} {p : (cubic (4 : K)).Point} (hP : P.Of p) (hr : r381 • p = 0) {k : Nat} (hk : k < r381) : (P.glvMul k).Of (k • p) :=
  Projective.glv_killed hc hP hr hk

/-- C122, finding: outside of the group it does not. It takes `x²` times the point with the coordinates `(0, 2)` for its opposite, where `x` is the parameter of the
curve; the point has order 3, and this multiple is the point itself. -/
theorem C122_glv_outside : ∃ p : (cubic (4 : K)).Point, coordsOf p = ⟨0, 2, false⟩ ∧ (blsX * blsX) • p = p ∧ p ≠ -p ∧
    ((coordsOf p).intoGroup.glvMul (blsX * blsX)).Of (-p) ∧ ¬ ((coordsOf p).intoGroup.glvMul (blsX * blsX)).Of ((blsX * blsX) • p) := by
  have hp : (p381 : K) = 0 := fq_zero hc
  have h2 : (2 : K) ≠ 0 := p381_two hp
  have hn : (cubic (4 : K)).Nonsingular 0 2 := cubic_smooth h2 (p381_three hp) (four_ne hp) (by norm_num)
  have hne : (Point.some 0 2 hn) ≠ -(Point.some 0 2 hn) := by
    intro h
    rw [Point.neg_some] at h
    have := (Point.some.inj h).2
    simp only [negY, cubic] at this
    have h4 : (4 : K) = 0 := by linear_combination this
    exact four_ne hp h4
  have hd : (Point.some 0 2 hn) + (Point.some 0 2 hn) = -(Point.some 0 2 hn) := by
    have h := Projective.double_of h2 (Projective.intoGroup_of (Point.some 0 2 hn))
    refine h.eq ?_
    have hneg := Projective.neg_of (Projective.intoGroup_of (Point.some 0 2 hn))
    rw [Point.neg_some] at hneg ⊢
    simp only [coordsOf, Affine.intoGroup, Projective.double, Projective.Of, negY, cubic] at hneg ⊢
    norm_num
    exact four_ne hp
  have h3 : 3 • (Point.some 0 2 hn) = 0 := by
    have h := succ_nsmul (Point.some 0 2 hn) 2
    rw [two_nsmul, hd, neg_add_cancel] at h
    exact h
  have hx : (blsX * blsX) • (Point.some 0 2 hn) = Point.some 0 2 hn :=
    (Raw.nsmul_mod h3 (show blsX * blsX ≡ 1 [MOD 3] by decide +kernel)).trans (one_nsmul _)
  have hg : ((coordsOf (Point.some 0 2 hn)).intoGroup.glvMul (blsX * blsX)).Of (-(Point.some 0 2 hn)) := by
    have hi := Projective.intoGroup_of (Point.some 0 2 hn)
    have he : (coordsOf (Point.some 0 2 hn)).intoGroup.endo.Of (Point.some 0 2 hn) := by
      simp only [coordsOf, Affine.intoGroup, Projective.endo, Projective.Of]
      simp
    have := Projective.glv_of h2 hi he (k := blsX * blsX) (by decide +kernel)
    rw [show glvSplit (blsX * blsX) = (0, -1) by decide +kernel] at this
    simpa using this
  exact ⟨_, rfl, hx, hne, hg, fun h => hne (by rw [hx] at h; exact h.eq hg)⟩

/-- C122: yet the part of the point inside the group is multiplied as it should, so that nothing changes in what C101 and C106 say of points outside of it. -/
theorem C122_glv_projects {P : Projective K} {p : (cubic (4 : K)).Point} (hP : P.Of p) {k : Nat} (hk : k < r381) :
    ∃ q : (cubic (4 : K)).Point, (P.glvMul k).Of q ∧ cofactor1 • q = k • (cofactor1 • p) := by
  have hp : (p381 : K) = 0 := fq_zero hc
  have h := Projective.glv_of (p381_two hp) hP (Projective.endo_phi1 hp hP) hk
  refine ⟨_, h, ?_⟩
  have hr : r381 • (cofactor1 • p) = 0 := by
    rw [← mul_nsmul', ← g1_card hc]
    exact card_nsmul_eq_zero'
  rw [smul_add, smul_comm, smul_comm (cofactor1) (glvSplit k).2, ← map_nsmul, Projective.phi1_killed hc hp hr]
  generalize cofactor1 • p = c
  rw [← natCast_zsmul, ← neg_smul, ← mul_smul, ← add_smul]
  have e : (glvSplit k).1 + (glvSplit k).2 * -((blsX * blsX : Nat) : Int) = k := by linear_combination (glvSplit_eq hk).1
  rw [e, natCast_zsmul]

end glv

section tests
variable {K : Type} [Field K] [DecidableEq K] [Fintype K] (hc : Fintype.card K = p381)
include hc

/-- C122: the tests for the subgroups, as they are computed, accept what C120 says, for all coordinates, on the curve or off it, and for both ways to multiply. -/
theorem C122_tests [Fact (∀ r : K, r ^ 2 ≠ -1 + 0 * r)] :
    (∀ P : Affine K, coordG1 Projective.mulNat P = inG1 P ∧ coordG1 Projective.glvMul P = inG1 P) ∧ ∀ P : Affine (Fq2 K), coordG2 P = inG2 P := by
  have h2 := p381_two (fq_zero hc)
  have h3 := p381_three (fq_zero hc)
  exact ⟨fun P => ⟨Projective.coordG1_eq h2 h3 (fun b P p h => Projective.mulNat_of h2 h blsX) P,
    Projective.coordG1_eq h2 h3 (fun b P p h => Projective.glv_blsX h2 (Projective.beta_cube (fq_zero hc)) h) P⟩, coordG2_eq (fq2_two hc) (fq2_three hc)⟩

end tests

section represented
variable {F H1 H2 GT R1 R2 RT : Type} [Field F] [AddCommGroup H1] [Module F H1] [AddCommGroup H2] [Module F H2] [AddCommGroup GT] [Module F GT]
  [Add R1] [Neg R1] [Zero R1] [SMul F R1] [Add R2] [Neg R2] [Zero R2] [SMul F R2] [Add RT] [Zero RT]
  {e : H1 →ₗ[F] H2 →ₗ[F] GT} {e' : R1 → R2 → RT} {j1 : H1 → R1} {j2 : H2 → R2} {jT : GT → RT}

/-- C122: whatever represents the elements of the groups, the verifiers return on it what they return on the elements. -/
theorem C122_verify [DecidableEq GT] [DecidableEq RT] (he : PairsRep e' (fun x y => e x y) j1 j2 jT) (hT : AddsRep jT) (h1 : Carries F j1) (h2 : Carries F j2)
    (sch : Scheduler) (crs : CRS H1 H2 GT) (equ : OneEqu F H1 H2 GT) (cp : CProof F H1 H2) :
    (equ.rep j1 j2 jT).verifyOn e' sch (crs.rep j1 j2 jT) (cp.on j1 j2) = equ.verify e sch crs cp := by
  obtain ⟨k1, k2, k3, k4⟩ := Raw.verify_rep he hT h1 h2 sch cp crs
  cases equ with
  | ppe equ => exact k1 equ
  | msmeg1 equ => exact k2 equ
  | msmeg2 equ => exact k3 equ
  | quad equ => exact k4 equ

variable {ρ : Type} [Rng ρ F H1 H2] [Rng ρ F R1 R2]

/-- C122: the commitments are what represents those of the elements. -/
theorem C122_commit (h1 : Carries F j1) (h2 : Carries F j2) (hr : SameScalars ρ F H1 H2 R1 R2) (crs : CRS H1 H2 GT) (rng : ρ) :
    (∀ x : H1, Raw.commitG1 (F := F) (j1 x) (crs.rep j1 j2 jT) rng = (commitG1 (F := F) x crs rng).map (Prod.map (Commit.on j1) id)) ∧
    (∀ x : List H1, Raw.batchCommitG1 (F := F) (x.map j1) (crs.rep j1 j2 jT) rng = (batchCommitG1 (F := F) x crs rng).map (Prod.map (Commit.on j1) id)) ∧
    (∀ x : F, Raw.commitScalarToB1 x (crs.rep j1 j2 jT) rng = (commitScalarToB1 x crs rng).map (Prod.map (Commit.on j1) id)) ∧
    (∀ x : List F, Raw.batchCommitScalarToB1 x (crs.rep j1 j2 jT) rng = (batchCommitScalarToB1 x crs rng).map (Prod.map (Commit.on j1) id)) ∧
    (∀ y : H2, Raw.commitG2 (F := F) (j2 y) (crs.rep j1 j2 jT) rng = (commitG2 (F := F) y crs rng).map (Prod.map (Commit.on j2) id)) ∧
    (∀ y : List H2, Raw.batchCommitG2 (F := F) (y.map j2) (crs.rep j1 j2 jT) rng = (batchCommitG2 (F := F) y crs rng).map (Prod.map (Commit.on j2) id)) ∧
    (∀ y : F, Raw.commitScalarToB2 y (crs.rep j1 j2 jT) rng = (commitScalarToB2 y crs rng).map (Prod.map (Commit.on j2) id)) ∧
    (∀ y : List F, Raw.batchCommitScalarToB2 y (crs.rep j1 j2 jT) rng = (batchCommitScalarToB2 y crs rng).map (Prod.map (Commit.on j2) id)) :=
  Raw.commit_rep h1 h2 hr crs rng

/-- C122: so are the proofs. -/
theorem C122_prove (h1 : Carries F j1) (h2 : Carries F j2) (hr : SameScalars ρ F H1 H2 R1 R2) (sch : Nat → Scheduler)
    (xc : Commit F H1) (yc : Commit F H2) (crs : CRS H1 H2 GT) (rng : ρ) :
    (∀ (equ : PPE F H1 H2 GT) x y, (equ.rep j1 j2 jT).proveRaw sch (x.map j1) (y.map j2) (xc.on j1) (yc.on j2) (crs.rep j1 j2 jT) rng =
      (equ.prove sch x y xc yc crs rng).map (Prod.map (EquProof.on j1 j2) id)) ∧
    (∀ (equ : MSMEG1 F H1) x y, (equ.on j1).proveRaw sch (x.map j1) y (xc.on j1) (yc.on j2) (crs.rep j1 j2 jT) rng =
      (equ.prove sch x y xc yc crs rng).map (Prod.map (EquProof.on j1 j2) id)) ∧
    (∀ (equ : MSMEG2 F H2) x y, (equ.on j2).proveRaw sch x (y.map j2) (xc.on j1) (yc.on j2) (crs.rep j1 j2 jT) rng =
      (equ.prove sch x y xc yc crs rng).map (Prod.map (EquProof.on j1 j2) id)) ∧
    (∀ (equ : QuadEqu F) x y, equ.proveRaw sch x y (xc.on j1) (yc.on j2) (crs.rep j1 j2 jT) rng =
      (equ.prove sch x y xc yc crs rng).map (Prod.map (EquProof.on j1 j2) id)) := by
  obtain ⟨k1, k2, k3, k4⟩ := Raw.prove_rep (jT := jT) h1 h2 hr sch xc yc crs rng
  obtain ⟨l1, l2, l3, l4⟩ := C106_prove_agrees sch xc yc crs rng
  exact ⟨fun equ x y => (l1 equ x y).1 ▸ k1 equ x y, fun equ x y => (l2 equ x y).1 ▸ k2 equ x y, fun equ x y => (l3 equ x y).1 ▸ k3 equ x y,
    fun equ x y => (l4 equ x y).1 ▸ k4 equ x y⟩

/-- C122: and the messages. -/
theorem C122_commit_and_prove (h1 : Carries F j1) (h2 : Carries F j2) (hr : SameScalars ρ F H1 H2 R1 R2) (sch : Nat → Scheduler) (crs : CRS H1 H2 GT) (rng : ρ) :
    (∀ (equ : PPE F H1 H2 GT) x y, (equ.rep j1 j2 jT).commitAndProveRaw sch (x.map j1) (y.map j2) (crs.rep j1 j2 jT) rng =
      (equ.commitAndProve sch x y crs rng).map (Prod.map (CProof.on j1 j2) id)) ∧
    (∀ (equ : MSMEG1 F H1) x y, (equ.on j1).commitAndProveRaw sch (x.map j1) y (crs.rep j1 j2 jT) rng =
      (equ.commitAndProve sch x y crs rng).map (Prod.map (CProof.on j1 j2) id)) ∧
    (∀ (equ : MSMEG2 F H2) x y, (equ.on j2).commitAndProveRaw sch x (y.map j2) (crs.rep j1 j2 jT) rng =
      (equ.commitAndProve sch x y crs rng).map (Prod.map (CProof.on j1 j2) id)) ∧
    (∀ (equ : QuadEqu F) x y, equ.commitAndProveRaw sch x y (crs.rep j1 j2 jT) rng =
      (equ.commitAndProve sch x y crs rng).map (Prod.map (CProof.on j1 j2) id)) := by
  obtain ⟨k1, k2, k3, k4⟩ := Raw.commitAndProve_rep (jT := jT) h1 h2 hr sch crs rng
  obtain ⟨l1, l2, l3, l4⟩ := C106_prove_agrees sch (⟨[], []⟩ : Commit F H1) (⟨[], []⟩ : Commit F H2) crs rng
  exact ⟨fun equ x y => (l1 equ x y).2 ▸ k1 equ x y, fun equ x y => (l2 equ x y).2 ▸ k2 equ x y, fun equ x y => (l3 equ x y).2 ▸ k3 equ x y,
    fun equ x y => (l4 equ x y).2 ▸ k4 equ x y⟩

end represented

section bls

/-- C122: in the target group, multiplication, 1, the conjugate and multiplication by the conjugate are the operations of the group. -/
theorem C122_target : AddsRep (gtOut (K := ZMod p381)) ∧ (∀ x : Gt (ZMod p381), gtOut (-x) = -gtOut x) ∧ ∀ x y : Gt (ZMod p381), gtOut (x - y) = gtOut x - gtOut y :=
  ⟨gtOut_adds, gtOut_neg (ZMod.card p381), gtOut_sub (ZMod.card p381)⟩

/-- C122, finding: an element of the target field that is not in the group, read without validation, and its negative need not add up to zero. -/
theorem C122_target_outside : ∃ x : PairingOutput (ZMod p381), x + -x ≠ 0 ∧ x - x ≠ 0 :=
  ⟨(2 : Fq12 (ZMod p381)), two_conj (ZMod.card p381), two_conj (ZMod.card p381)⟩

variable [MulProjective (ZMod r381) (ZMod p381)] [MulProjective (ZMod r381) (Fq2 (ZMod p381))]

/-- Scalars multiply points of the first group. -/
abbrev BlsMul1 : Prop := Multiplies r381 fun p : (cubic (4 : ZMod p381)).Point => r381 • p = 0

/-- Scalars multiply points of the second group. -/
abbrev BlsMul2 : Prop := Multiplies r381 fun p : (cubic (⟨4, 4⟩ : Fq2 (ZMod p381))).Point => r381 • p = 0

omit [MulProjective (ZMod r381) (ZMod p381)] [MulProjective (ZMod r381) (Fq2 (ZMod p381))] in
/-- C122: the ways of multiplying that ark-bls12-381 uses. -/
theorem C122_methods : @BlsMul1 (glvMethod (ZMod p381)) ∧ @BlsMul1 (doubleAndAdd r381 (ZMod p381)) ∧ @BlsMul2 (doubleAndAdd r381 (Fq2 (ZMod p381))) :=
  ⟨glvMethod_multiplies (ZMod.card p381), doubleAndAdd_multiplies (p381_two (fq_zero (ZMod.card p381))) _, doubleAndAdd_multiplies (fq2_two (ZMod.card p381)) _⟩

theorem bls_incl1 (h1 : BlsMul1) : Multiplies r381 fun p => ∃ x, incl1 leFq x = p := fun P p hp h a => h1 P p ((incl1_killed leFq p).mp hp) h a
theorem bls_incl2 (h2 : BlsMul2) : Multiplies r381 fun p => ∃ x, incl2 leFq x = p := fun P p hp h a => h2 P p ((incl2_killed leFq p).mp hp) h a

theorem rep1_eq : blsG1.rep r381 = fun x => coordsOf (incl1 leFq x) := funext (incl1_rep leFq)
theorem rep2_eq : blsG2.rep r381 = fun x => coordsOf (incl2 leFq x) := funext (incl2_rep leFq)

/-- C122, BLS12-381: adding, negating and multiplying coordinates of points of the groups gives coordinates of their sums, negatives and multiples. -/
theorem C122_bls_carries (h1 : BlsMul1) (h2 : BlsMul2) : Carries (ZMod r381) (blsG1.rep r381) ∧ Carries (ZMod r381) (blsG2.rep r381) := by
  rw [rep1_eq, rep2_eq]
  exact ⟨coords_carries (p381_two (fq_zero (ZMod.card p381))) (incl1 leFq) (bls_incl1 h1), coords_carries (fq2_two (ZMod.card p381)) (incl2 leFq) (bls_incl2 h2)⟩

variable {e : blsG1.torsion r381 →ₗ[ZMod r381] blsG2.torsion r381 →ₗ[ZMod r381] Gt (ZMod p381)}
  {pair : Affine (ZMod p381) → Affine (Fq2 (ZMod p381)) → PairingOutput (ZMod p381)}

/-- The pairing of coordinates is, for points of the groups, the pairing `e`. -/
abbrev BlsPairs (pair : Affine (ZMod p381) → Affine (Fq2 (ZMod p381)) → PairingOutput (ZMod p381))
    (e : blsG1.torsion r381 →ₗ[ZMod r381] blsG2.torsion r381 →ₗ[ZMod r381] Gt (ZMod p381)) : Prop :=
  PairsRep pair (fun x y => e x y) (blsG1.rep r381) (blsG2.rep r381) gtOut

/-- The verifier on coordinates. -/
noncomputable abbrev blsVerify (pair : Affine (ZMod p381) → Affine (Fq2 (ZMod p381)) → PairingOutput (ZMod p381)) (sch : Scheduler)
    (crs : CRS (Affine (ZMod p381)) (Affine (Fq2 (ZMod p381))) (Fq12 (ZMod p381)))
    (equ : OneEqu (ZMod r381) (Affine (ZMod p381)) (Affine (Fq2 (ZMod p381))) (Fq12 (ZMod p381)))
    (cp : CProof (ZMod r381) (Affine (ZMod p381)) (Affine (Fq2 (ZMod p381)))) : Res Bool :=
  OneEqu.verifyOn (RT := PairingOutput (ZMod p381)) pair sch crs cp equ

/-- C122, BLS12-381: the verifier that computes with coordinates. -/
theorem C122_bls_verify (h1 : BlsMul1) (h2 : BlsMul2) (he : BlsPairs pair e) (sch : Scheduler) (crs : CRS (blsG1.torsion r381) (blsG2.torsion r381) (Gt (ZMod p381)))
    (equ : OneEqu (ZMod r381) (blsG1.torsion r381) (blsG2.torsion r381) (Gt (ZMod p381))) (cp : CProof (ZMod r381) (blsG1.torsion r381) (blsG2.torsion r381)) :
    blsVerify pair sch (blsCrsRep crs) (blsEquRep equ) (blsMessage cp) = equ.verify e sch crs cp :=
  C122_verify he C122_target.1 (C122_bls_carries h1 h2).1 (C122_bls_carries h1 h2).2 sch crs equ cp

/-- C122, BLS12-381: `generate_crs` on coordinates, with the key it prepares and with the other one. -/
theorem C122_bls_crs (h1 : BlsMul1) (h2 : BlsMul2) (he : BlsPairs pair e) {P1 : Projective (ZMod p381)} {P2 : Projective (Fq2 (ZMod p381))}
    {p1 : blsG1.torsion r381} {p2 : blsG2.torsion r381} (hP1 : P1.Of (incl1 leFq p1)) (hP2 : P2.Of (incl2 leFq p2)) (a1 a2 t1 t2 : ZMod r381) :
    assembleCoord pair prepareRealCoord P1 P2 a1 a2 t1 t2 = blsCrsRep (assembleCrs e prepareRealBindingKey p1 p2 a1 a2 t1 t2) ∧
    assembleCoord pair prepareSimulatedCoord P1 P2 a1 a2 t1 t2 = blsCrsRep (assembleCrs e prepareSimulatedHidingKey p1 p2 a1 a2 t1 t2) := by
  unfold BlsPairs at he
  unfold blsCrsRep
  rw [rep1_eq, rep2_eq] at he ⊢
  exact assemble_of (p381_two (fq_zero (ZMod.card p381))) (fq2_two (ZMod.card p381)) (incl1 leFq) (incl2 leFq) (bls_incl1 h1) (bls_incl2 h2) he hP1 hP2 a1 a2 t1 t2

/-- C122, BLS12-381: all of `generate_crs`, for generators of random values that draw the same scalars, and the same points of the groups in coordinates. -/
theorem C122_bls_generate {ρ : Type} [Rng ρ (ZMod r381) (Projective (ZMod p381)) (Projective (Fq2 (ZMod p381)))]
    [Rng ρ (ZMod r381) (blsG1.torsion r381) (blsG2.torsion r381)] (h1 : BlsMul1) (h2 : BlsMul2) (he : BlsPairs pair e)
    (hF : SameScalars ρ (ZMod r381) (blsG1.torsion r381) (blsG2.torsion r381) (Projective (ZMod p381)) (Projective (Fq2 (ZMod p381))))
    (hG1 : ∀ s : ρ, ∃ (P : Projective (ZMod p381)) (p : blsG1.torsion r381) (s' : ρ), Rng.randG1 (ZMod r381) (Projective (Fq2 (ZMod p381))) s = (P, s') ∧
      Rng.randG1 (ZMod r381) (blsG2.torsion r381) s = (p, s') ∧ P.Of (incl1 leFq p))
    (hG2 : ∀ s : ρ, ∃ (P : Projective (Fq2 (ZMod p381))) (p : blsG2.torsion r381) (s' : ρ), Rng.randG2 (ZMod r381) (Projective (ZMod p381)) s = (P, s') ∧
      Rng.randG2 (ZMod r381) (blsG1.torsion r381) s = (p, s') ∧ P.Of (incl2 leFq p)) (rng : ρ) :
    generateCoord (F := ZMod r381) pair rng = (blsCrsRep (generateCrs e rng).1, (generateCrs e rng).2) := by
  obtain ⟨P1, p1, s1, a1, a2, a3⟩ := hG1 rng
  obtain ⟨P2, p2, s2, b1, b2, b3⟩ := hG2 s1
  unfold generateCoord generateCrs
  simp only [a1, a2, b1, b2, hF _]
  rw [(C122_bls_crs h1 h2 he a3 b3 _ _ _ _).1]
  rfl

omit [MulProjective (ZMod r381) (ZMod p381)] [MulProjective (ZMod r381) (Fq2 (ZMod p381))] in
/-- C122, BLS12-381: and the generators it starts from, which are multiples by the cofactors of points found by the sampler. -/
theorem C122_bls_sampled (p : blsG1.curve.Point) (q : blsG2.curve.Point) :
    ((blsG1.coords p).mulNat cofactor1).Of (incl1 leFq (blsG1.byCofactor r381 cofactor1 (blsG1.coords p))) ∧
    ((blsG2.coords q).mulNat cofactor2).Of (incl2 leFq (blsG2.byCofactor r381 cofactor2 (blsG2.coords q))) :=
  ⟨sampled1 (ZMod.card p381) leFq p, sampled2 (ZMod.card p381) leFq q⟩

/-- C122, BLS12-381: soundness, from the bytes to the coordinates. -/
theorem C122_bls_sound (h1 : BlsMul1) (h2 : BlsMul2) (hpair : BlsPairs pair e) (he : e ≠ 0) (sch : Scheduler)
    (crs : CRS (blsG1.torsion r381) (blsG2.torsion r381) (Gt (ZMod p381))) (hc : GeneratedCrs e crs)
    (h0 : crs.NonzeroGens) (k : EquType) (m : Compress) (rC bsE bsP : Bytes)
    (hm : m = .Yes ∨ k = .PairingProduct ∨ k = .Quadratic ∨ ∀ x rest, blsEquDe k m .Yes bsE = .ok (x, rest) → BlsEquValid x)
    (h : receiveAll blsFr (blsG1.blsCodec blsFq) (blsG2.blsCodec blsFq2) blsGt k m .Yes (blsCrsCodec.ser m (blsCrsRep crs) ++ rC) bsE bsP (blsVerify pair sch) =
      .ok (.ok true)) :
    ∃ equ rE cp rP, equ.kind = k ∧ blsEquDe k m .Yes bsE = .ok (blsEquRep equ, rE) ∧
      (CProof.codec blsFr (blsG1.blsCodec blsFq) (blsG2.blsCodec blsFq2)).de m .Yes bsP = .ok (blsMessage cp, rP) ∧ equ.Proved e crs cp :=
  C121_bls_sound he sch crs hc h0 k m rC bsE bsP hm (blsVerify pair sch) (C122_bls_verify h1 h2 hpair sch) h

/-- C122, BLS12-381: the same for any CRS. -/
theorem C122_bls_any (h1 : BlsMul1) (h2 : BlsMul2) (hpair : BlsPairs pair e) (he : e ≠ 0) (sch : Scheduler) (k : EquType) (m : Compress) (bsC bsE bsP : Bytes)
    (hm : m = .Yes ∨ (∀ x rest, blsCrsCodec.de m .Yes bsC = .ok (x, rest) → blsCrsCodec.Valid x) ∧
      (k = .PairingProduct ∨ k = .Quadratic ∨ ∀ x rest, blsEquDe k m .Yes bsE = .ok (x, rest) → BlsEquValid x))
    (h : receiveAll blsFr (blsG1.blsCodec blsFq) (blsG2.blsCodec blsFq2) blsGt k m .Yes bsC bsE bsP (blsVerify pair sch) = .ok (.ok true)) :
    ∃ crs rC equ rE cp rP, equ.kind = k ∧ blsCrsCodec.de m .Yes bsC = .ok (blsCrsRep crs, rC) ∧ blsEquDe k m .Yes bsE = .ok (blsEquRep equ, rE) ∧
      (CProof.codec blsFr (blsG1.blsCodec blsFq) (blsG2.blsCodec blsFq2)).de m .Yes bsP = .ok (blsMessage cp, rP) ∧
      (crs.u.length = 2 → crs.v.length = 2 → equ.Binding crs → equ.Extracted e crs cp) :=
  C121_bls_any he sch k m bsC bsE bsP hm (blsVerify pair sch) (C122_bls_verify h1 h2 hpair sch) h

/-- C122, BLS12-381: completeness. Prover and verifier compute with coordinates, and the verifier is given bytes. -/
theorem C122_bls_honest {ρ : Type} [Rng ρ (ZMod r381) (Affine (ZMod p381)) (Affine (Fq2 (ZMod p381)))] (h1 : BlsMul1) (h2 : BlsMul2) (hpair : BlsPairs pair e)
    (sch : Nat → Scheduler) (sch' : Scheduler)
    (crs : CRS (blsG1.torsion r381) (blsG2.torsion r381) (Gt (ZMod p381))) (hc : GeneratedCrs e crs) (rng : ρ) (m : Compress) (v : Validate) (rC rE rP : Bytes) :
    let accepts := fun equ msg => receiveAll blsFr (blsG1.blsCodec blsFq) (blsG2.blsCodec blsFq2) blsGt (OneEqu.kind equ) m v (blsCrsCodec.ser m (blsCrsRep crs) ++ rC)
      (equ.ser blsFr (blsG1.blsCodec blsFq) (blsG2.blsCodec blsFq2) blsGt m ++ rE)
      ((CProof.codec blsFr (blsG1.blsCodec blsFq) (blsG2.blsCodec blsFq2)).ser m msg ++ rP) (blsVerify pair sch') = .ok (.ok true)
    let r1 := List.map (blsG1.rep r381)
    let r2 := List.map (blsG2.rep r381)
    (∀ (equ : PPE (ZMod r381) (blsG1.torsion r381) (blsG2.torsion r381) (Gt (ZMod p381))) x y, x ≠ [] → y ≠ [] → Fits64 x → Fits64 y → equ.Dims x.length y.length →
      equ.Holds e x y → ∃ msg rng', (equ.rep (blsG1.rep r381) (blsG2.rep r381) gtRep).commitAndProveRaw sch (r1 x) (r2 y) (blsCrsRep crs) rng = .ok (msg, rng') ∧
        accepts (.ppe (equ.rep (blsG1.rep r381) (blsG2.rep r381) gtRep)) msg) ∧
    (∀ (equ : MSMEG1 (ZMod r381) (blsG1.torsion r381)) x y, x ≠ [] → y ≠ [] → Fits64 x → Fits64 y → equ.Dims x.length y.length →
      equ.Holds x y → ∃ msg rng', (equ.on (blsG1.rep r381)).commitAndProveRaw sch (r1 x) y (blsCrsRep crs) rng = .ok (msg, rng') ∧
        accepts (.msmeg1 (equ.on (blsG1.rep r381))) msg) ∧
    (∀ (equ : MSMEG2 (ZMod r381) (blsG2.torsion r381)) x y, x ≠ [] → y ≠ [] → Fits64 x → Fits64 y → equ.Dims x.length y.length →
      equ.Holds x y → ∃ msg rng', (equ.on (blsG2.rep r381)).commitAndProveRaw sch x (r2 y) (blsCrsRep crs) rng = .ok (msg, rng') ∧
        accepts (.msmeg2 (equ.on (blsG2.rep r381))) msg) ∧
    (∀ (equ : QuadEqu (ZMod r381)) x y, x ≠ [] → y ≠ [] → Fits64 x → Fits64 y → equ.Dims x.length y.length →
      equ.Holds x y → ∃ msg rng', equ.commitAndProveRaw sch x y (blsCrsRep crs) rng = .ok (msg, rng') ∧ accepts (.quad equ) msg) := by
  intro accepts r1 r2
  letI : Rng ρ (ZMod r381) (blsG1.torsion r381) (blsG2.torsion r381) :=
    ⟨Rng.randF (Affine (ZMod p381)) (Affine (Fq2 (ZMod p381))), fun s => (0, s), fun s => (0, s)⟩
  obtain ⟨c1, c2⟩ := C122_bls_carries h1 h2
  obtain ⟨k1, k2, k3, k4⟩ := C121_bls_honest sch sch' crs hc rng m v rC rE rP (blsVerify pair sch') (C122_bls_verify h1 h2 hpair sch')
  obtain ⟨l1, l2, l3, l4⟩ := C122_commit_and_prove (jT := (gtRep : Gt (ZMod p381) → Fq12 (ZMod p381))) c1 c2
    (fun _ => rfl : SameScalars ρ (ZMod r381) (blsG1.torsion r381) (blsG2.torsion r381) (Affine (ZMod p381)) (Affine (Fq2 (ZMod p381)))) sch crs rng
  refine ⟨fun equ x y hx hy fx fy hd hs => ?_, fun equ x y hx hy fx fy hd hs => ?_, fun equ x y hx hy fx fy hd hs => ?_,
    fun equ x y hx hy fx fy hd hs => ?_⟩
  · obtain ⟨cp, rng', h, hw⟩ := k1 equ x y hx hy fx fy hd hs
    exact ⟨_, _, by rw [l1, h]; rfl, hw⟩
  · obtain ⟨cp, rng', h, hw⟩ := k2 equ x y hx hy fx fy hd hs
    exact ⟨_, _, by rw [l2, h]; rfl, hw⟩
  · obtain ⟨cp, rng', h, hw⟩ := k3 equ x y hx hy fx fy hd hs
    exact ⟨_, _, by rw [l3, h]; rfl, hw⟩
  · obtain ⟨cp, rng', h, hw⟩ := k4 equ x y hx hy fx fy hd hs
    exact ⟨_, _, by rw [l4, h]; rfl, hw⟩

end bls

namespace Ex

/-- The point `(0, 2)`, whose coordinates are `(0, 16, 2)` too. -/
noncomputable def qFour : (cubic (4 : ZMod p381)).Point := .some 0 2 (cubic_smooth (p381_two (fq_zero (ZMod.card p381))) (p381_three (fq_zero (ZMod.card p381)))
  (four_ne (fq_zero (ZMod.card p381))) (by norm_num))

theorem qFour_of : (⟨0, 16, 2⟩ : Projective (ZMod p381)).Of qFour := ⟨p381_two (fq_zero (ZMod.card p381)), by norm_num, by norm_num⟩

/-- Equal points with other coordinates, opposite points and zero. -/
example : ((⟨0, 16, 2⟩ : Projective (ZMod p381)).add ⟨0, 2, 1⟩).Of (qFour + qFour) ∧ ((⟨0, 16, 2⟩ : Projective (ZMod p381)).sub ⟨0, 2, 1⟩).Of (0 : (cubic (4 : ZMod p381)).Point) ∧
    (⟨0, 16, 2⟩ : Projective (ZMod p381)).same ⟨0, 2, 1⟩ = true ∧ (⟨0, 16, 2⟩ : Projective (ZMod p381)).intoAffine = ⟨0, 2, false⟩ := by
  have h : (⟨0, 2, 1⟩ : Projective (ZMod p381)).Of qFour := ⟨one_ne_zero, by norm_num, by norm_num⟩
  obtain ⟨-, h1, -, -, h2, h3, h4⟩ := C122_formulas (p381_two (fq_zero (ZMod.card p381))) qFour_of h
  rw [sub_self] at h2
  exact ⟨h1, h2, h3.mpr rfl, h4⟩

example (n : Nat) := C122_multiplication (p381_two (fq_zero (ZMod.card p381))) qFour_of n

example : ∃ p : (cubic (4 : ZMod p381)).Point, (⟨0, 16, 2⟩ : Projective (ZMod p381)).Of p :=
  (C122_coordinates (p381_two (fq_zero (ZMod.card p381))) (p381_three (fq_zero (ZMod.card p381))) (four_ne (fq_zero (ZMod.card p381))) _).1.mpr (.inr (by norm_num))

/-- The generator of the first group. -/
example {K : Type} [Field K] [Fintype K] [DecidableEq K] (hK : Fintype.card K = p381) {k : Nat} (hk : k < r381) :
    ((coordsOf (g1Point (fq_zero hK))).intoGroup.glvMul k).Of (k • g1Point (fq_zero hK)) :=
  C122_glv hK (Projective.intoGroup_of _) (g1Point_killed (fq_zero hK)) hk

example : ∃ k < r381, (glvSplit k).1 ≠ 0 ∧ (glvSplit k).2 ≠ 0 := ⟨blsX * blsX - 1, by decide +kernel, by decide +kernel, by decide +kernel⟩

example := C122_glv_outside (ZMod.card p381)

example {k : Nat} (hk : k < r381) := C122_glv_projects (ZMod.card p381) qFour_of hk

example := C122_tests (ZMod.card p381)

/-- A pairing of coordinates. -/
theorem pairC : ∃ pair, BlsPairs pair eT := by
  classical
  refine ⟨fun P Q => if h : ∃ a : BH1 × BH2, blsG1.rep r381 a.1 = P ∧ blsG2.rep r381 a.2 = Q then gtOut (eT h.choose.1 h.choose.2) else (0 : PairingOutput (ZMod p381)), fun x y => ?_⟩
  have h : ∃ a : BH1 × BH2, blsG1.rep r381 a.1 = blsG1.rep r381 x ∧ blsG2.rep r381 a.2 = blsG2.rep r381 y := ⟨⟨x, y⟩, rfl, rfl⟩
  obtain ⟨h1, h2⟩ := h.choose_spec
  simp only [dif_pos h, repB1 h1, repB2 h2]

noncomputable instance : Rng Nat (ZMod r381) (Affine (ZMod p381)) (Affine (Fq2 (ZMod p381))) := ⟨fun s => (s, s + 1), fun s => (0, s), fun s => (0, s)⟩

/-- An honest proof, made and verified with coordinates, with the method of Gallant, Lambert and Vanstone in the first group. -/
example (sch : Nat → Scheduler) (m : Compress) : ∃ pair, BlsPairs pair eT ∧
    letI := glvMethod (ZMod p381)
    letI := doubleAndAdd r381 (Fq2 (ZMod p381))
    ∃ bsC bsE bsP, receiveAll blsFr (blsG1.blsCodec blsFq) (blsG2.blsCodec blsFq2) blsGt .PairingProduct m .Yes bsC bsE bsP (blsVerify pair seqSched) = .ok (.ok true) ∧
    ∃ equ rE cp rP, equ.kind = .PairingProduct ∧ blsEquDe .PairingProduct m .Yes bsE = .ok (blsEquRep equ, rE) ∧
      (CProof.codec blsFr (blsG1.blsCodec blsFq) (blsG2.blsCodec blsFq2)).de m .Yes bsP = .ok (blsMessage cp, rP) ∧ equ.Proved eT crsT cp := by
  obtain ⟨pair, hp⟩ := pairC
  refine ⟨pair, hp, ?_⟩
  let := glvMethod (ZMod p381)
  let := doubleAndAdd r381 (Fq2 (ZMod p381))
  obtain ⟨m1, -, m2⟩ := C122_methods
  obtain ⟨msg, rng', h, hr⟩ := (C122_bls_honest m1 m2 hp sch seqSched crsT crsT_generated (5 : Nat) m .Yes [1] [2] [3]).1 ppeT [logB1.symm 1] [logB2.symm 2]
    (by simp) (by simp) (by simp [Fits64]) (by simp [Fits64]) ⟨rfl, rfl, rfl, by simp [ppeT]⟩ ppeT_holds
  exact ⟨_, _, _, hr, C122_bls_sound m1 m2 hp eT_ne seqSched crsT crsT_generated crsT_nonzero _ m _ _ _ (.inr (.inl rfl)) hr⟩

end Ex

end GS
