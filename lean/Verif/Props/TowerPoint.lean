import Verif.Lemmas.TowerPoint
import Verif.Props.Sent
import Verif.Props.Tower

/-!
# C128: points and proofs of BLS12-381 in words

With the fields in words (C126, C127), the formulas for points in Jacobian coordinates give words of the sums, multiples and negatives of points, the tests for the subgroups decide, and everything the library does
with points, from the generation of the CRS to proofs and their verification, is computed with words of 64 bits as it is with elements of the groups.
-/

set_option linter.unusedSectionVars false

namespace GS
open Polynomial Tower

section formulas
variable {R S : Type} [Ops R] [DecidableEq R] [Field S] [DecidableEq S] {φ : R → S} {b : S}

/-- C128: `into_affine` does not panic, whatever the coordinates: the inverse that it unwraps exists. -/
theorem C128_into_affine (h : Models φ) (P : Projective R) (hz : P.z ≠ 0) : (Tower.inverse P.z).isSome = true := by
  obtain ⟨c, e, -⟩ := h.inverse P.z fun h0 => hz (h.eq_zero.1 h0)
  rw [e]; rfl

/-- C128: the formulas, computed with words, are right for all points of the curve, equal, opposite and zero ones included. -/
theorem C128_formulas (h : Models φ) (h2 : (2 : S) ≠ 0) {P Q : Projective R} {Q' : Affine R} {p q : (cubic b).Point} (hP : (valJ φ P).Of p) (hQ : (valJ φ Q).Of q)
    (hQ' : valA φ Q' = coordsOf q) :
    (valJ φ (doubleW P)).Of (p + p) ∧ (valJ φ (addW P Q)).Of (p + q) ∧ (valJ φ (addAffineW P Q')).Of (p + q) ∧ (valJ φ (negW P)).Of (-p) ∧ (valJ φ (subW P Q)).Of (p - q) ∧
    (sameW P Q = true ↔ p = q) ∧ valA φ (intoAffineW P) = coordsOf p ∧ (valJ φ (intoGroupW Q')).Of q := by
  rw [valJ_double h, valJ_add h, valJ_addAffine h, hQ', valJ_neg h, valJ_sub h, same_val h, valA_intoAffine h, valJ_intoGroup h, hQ']
  obtain ⟨k1, k2, k3, k4, k5, k6, k7⟩ := C122_formulas h2 hP hQ
  exact ⟨k1, k2, k3, k4, k5, k6, k7, Projective.intoGroup_of q⟩

/-- C128: so is doubling and adding, for multiples of any size. -/
theorem C128_multiplication (h : Models φ) (h2 : (2 : S) ≠ 0) {P : Projective R} {P' : Affine R} {p : (cubic b).Point} (hP : (valJ φ P).Of p) (hP' : valA φ P' = coordsOf p) (n : Nat) :
    (valJ φ (mulNatW P n)).Of (n • p) ∧ (valJ φ (mulNatAffineW P' n)).Of (n • p) := by
  rw [valJ_mulNat h, valJ_mulNatAffine h, hP']
  exact C122_multiplication h2 hP n

/-- C128: what `Com1` and `Com2` do with affine coordinates in words. -/
theorem C128_sums (h : Models φ) (h2 : (2 : S) ≠ 0) (r : Nat) {P Q : Affine R} {p q : (cubic b).Point} (hP : valA φ P = coordsOf p) (hQ : valA φ Q = coordsOf q) :
    valA φ (P + Q) = coordsOf (p + q) ∧ valA φ (-P) = coordsOf (-p) ∧ valA φ (0 : Affine R) = coordsOf (0 : (cubic b).Point) ∧
    letI := doubleAndAddW r R
    ∀ a : ZMod r, valA φ (a • P) = coordsOf (a.val • p) := by
  let := doubleAndAddW r R
  let := doubleAndAdd r S
  obtain ⟨k1, k2, k3, k4⟩ := C122_sums h2 r p q
  refine ⟨by rw [valA_add h, hP, hQ, k1], by rw [valA_neg h, hP, k2], by rw [valA_zero h, k3], fun a => ?_⟩
  rw [valA_smul h (fun Q a => valJ_mulNat h Q a.val), hP]
  exact k4 a

end formulas

section bls381
variable {R S : Type} [Ops R] [DecidableEq R] [Field S] [DecidableEq S] [Fintype S] {φ : R → S} (hc : Fintype.card S = p381)
include hc

/-- C128: the method of Gallant, Lambert and Vanstone on points of the first group. -/
theorem C128_glv (h : Models φ) {beta : R} (hb : φ beta = beta1) {P : Projective R} {p : (cubic (4 : S)).Point} (hP : (valJ φ P).Of p) (hr : r381 • p = 0) {k : Nat} (hk : k < r381) :
    (valJ φ (glvMulW beta P k)).Of (k • p) := by
  rw [valJ_glvMul h hb]
  exact C122_glv hc hP hr hk

/-- C128: the tests for the subgroups give, for all coordinates, what they give for the elements of the fields. -/
theorem C128_tests [Fact (∀ r : S, r ^ 2 ≠ -1 + 0 * r)] (h : Models φ) {beta : R} (hb : φ beta = beta1) {c0 c1 : Fp2 R} (h0 : val2 φ c0 = toFq2 coeff0) (h1 : val2 φ c1 = toFq2 coeff1)
    (P : Affine R) (Q : Affine (Fp2 R)) : testG1W beta P = inG1 (valA φ P) ∧ testG2W c0 c1 Q = inG2 (valA (val2 φ) Q) := by
  rw [testG1_val h hb, testG2_val h h0 h1]
  exact ⟨((C122_tests hc).1 _).2, (C122_tests hc).2 _⟩

end bls381

section bls

/-- Elements of `Fq` in words. -/
abbrev FqW := Word Words.fqWords

/-- What the words of an element stand for. -/
abbrev ofFq : FqW → ZMod p381 := ofWord p381

theorem modelsFq : Models ofFq := C127_words C126_bls.2
theorem modelsFq2 : Models (val2 ofFq) := (C127_fields modelsFq).1
theorem modelsFq12 : Models (val12 ofFq) := (C127_fields modelsFq).2.2

/-- The words of an element, of a pair of elements and of an element of the target field. -/
def toFq (x : ZMod p381) : FqW := wordOf C126_bls.2 x.val
@[inherit_doc toFq]
def toFqPair (x : Fq2 (ZMod p381)) : Fp2 FqW := ⟨toFq x.re, toFq x.im⟩
@[inherit_doc toFq]
noncomputable def toFqTwelve : Fq12 (ZMod p381) → OutputW FqW := Function.surjInv modelsFq12.bij.2

theorem ofFq_toFq (x : ZMod p381) : ofFq (toFq x) = x := (wordOf_residue C126_bls.2 _).trans (ZMod.natCast_zmod_val x)
theorem of_toFqPair (x : Fq2 (ZMod p381)) : val2 ofFq (toFqPair x) = x := by
  ext
  · exact ofFq_toFq _
  · exact ofFq_toFq _
theorem of_toFqTwelve (x : Fq12 (ZMod p381)) : val12 ofFq (toFqTwelve x) = x := Function.surjInv_eq modelsFq12.bij.2 x

/-- The words of a point, src/data_structures.rs:108-134. -/
def toW1 (P : Affine (ZMod p381)) : Affine FqW := ⟨toFq P.x, toFq P.y, P.infinity⟩
@[inherit_doc toW1]
def toW2 (P : Affine (Fq2 (ZMod p381))) : Affine (Fp2 FqW) := ⟨toFqPair P.x, toFqPair P.y, P.infinity⟩

theorem of_toW1 (P : Affine (ZMod p381)) : valA ofFq (toW1 P) = P := by rw [valA, toW1]; simp only [ofFq_toFq]
theorem of_toW2 (P : Affine (Fq2 (ZMod p381))) : valA (val2 ofFq) (toW2 P) = P := by rw [valA, toW2]; simp only [of_toFqPair]

theorem injW1 : Function.Injective (valA ofFq : Affine FqW → _) := valA_inj modelsFq.bij.1
theorem injW2 : Function.Injective (valA (val2 ofFq) : Affine (Fp2 FqW) → _) := valA_inj modelsFq2.bij.1

/-- The words of an element of the first group, of the second and of the target group. -/
noncomputable def word1 (x : blsG1.torsion r381) : Affine FqW := toW1 (blsG1.rep r381 x)
@[inherit_doc word1]
noncomputable def word2 (x : blsG2.torsion r381) : Affine (Fp2 FqW) := toW2 (blsG2.rep r381 x)
@[inherit_doc word1]
noncomputable def wordT (x : Gt (ZMod p381)) : OutputW FqW := toFqTwelve (gtRep x)

/-- `mul_projective` of `g1::Config`. -/
instance : MulProjective (ZMod r381) FqW := glvMethodW (toFq beta1)
/-- `mul_projective` of `g2::Config`. -/
instance : MulProjective (ZMod r381) (Fp2 FqW) := doubleAndAddW r381 (Fp2 FqW)

/-- `Bls12_381::pairing` and `Bls12_381::multi_pairing` on words, src/data_structures.rs:484-502. -/
def wordArk : ArkPairing (Affine FqW) (Affine (Fp2 FqW)) (OutputW FqW) := ⟨fun a b => wordPairing [a] [b], wordPairing⟩

theorem word_mul1 (P : Projective FqW) (a : ZMod r381) : valJ ofFq (MulProjective.mul P a) = @MulProjective.mul _ _ (glvMethod (ZMod p381)) (valJ ofFq P) a :=
  valJ_glvMul modelsFq (beta := toFq beta1) (ofFq_toFq beta1) P a.val

theorem word_mul2 (P : Projective (Fp2 FqW)) (a : ZMod r381) :
    valJ (val2 ofFq) (MulProjective.mul P a) = @MulProjective.mul _ _ (doubleAndAdd r381 (Fq2 (ZMod p381))) (valJ (val2 ofFq) P) a :=
  valJ_mulNat modelsFq2 P a.val

/-- C128: adding, negating and multiplying the words of points of the groups of BLS12-381 gives the words of the results. -/
theorem C128_bls_carries : Carries (ZMod r381) word1 ∧ Carries (ZMod r381) word2 := by
  let i1 := glvMethod (ZMod p381)
  let i2 := doubleAndAdd r381 (Fq2 (ZMod p381))
  obtain ⟨k1, k2⟩ := C122_bls_carries C122_methods.1 C122_methods.2.2
  have e1 : ∀ x, valA ofFq (word1 x) = blsG1.rep r381 x := fun x => of_toW1 _
  have e2 : ∀ x, valA (val2 ofFq) (word2 x) = blsG2.rep r381 x := fun x => of_toW2 _
  refine ⟨⟨injW1 ?_, fun x y => injW1 ?_, fun a x => injW1 ?_⟩, ⟨injW2 ?_, fun x y => injW2 ?_, fun a x => injW2 ?_⟩⟩
  · rw [e1, k1.zero]; exact (valA_zero modelsFq).symm
  · rw [e1, k1.add, valA_add modelsFq, e1, e1]
  · rw [e1, k1.smul, valA_smul modelsFq word_mul1, e1]
  · rw [e2, k2.zero]; exact (valA_zero modelsFq2).symm
  · rw [e2, k2.add, valA_add modelsFq2, e2, e2]
  · rw [e2, k2.smul, valA_smul modelsFq2 word_mul2, e2]

/-- C128: so does adding elements of the target group. -/
theorem C128_target : AddsRep wordT := by
  have e : ∀ x, val12 ofFq (wordT x) = gtOut x := fun x => of_toFqTwelve _
  refine ⟨fun x y h => gtOut_adds.injective (by rw [← e, ← e, h]), modelsFq12.bij.1 ?_, fun x y => modelsFq12.bij.1 ?_⟩
  · exact (e 0).trans (gtOut_adds.zero.trans modelsFq12.one.symm)
  · refine (e _).trans ((gtOut_adds.add x y).trans ?_)
    exact (congrArg₂ (fun a b : Fq12 (ZMod p381) => a * b) (e x).symm (e y).symm).trans (modelsFq12.mul _ _).symm

theorem wordArk_multi (l : List (blsG1.torsion r381 × blsG2.torsion r381)) :
    wordPairing (l.map fun pq => word1 pq.1) (l.map fun pq => word2 pq.2) = some (wordT ((l.map fun pq => blsE pq.1 pq.2).sum)) := by
  obtain ⟨t, h1, -, h2⟩ := C127_bls l (l.map fun pq => word1 pq.1) (l.map fun pq => word2 pq.2)
    (by rw [List.map_map]; exact List.map_congr_left fun pq _ => of_toW1 _) (by rw [List.map_map]; exact List.map_congr_left fun pq _ => of_toW2 _)
  exact h1.trans (congrArg some (h2 _ (of_toFqTwelve _)).symm)

/-- The pairing on words, with some value where it panics. -/
def wordPair (a : Affine FqW) (b : Affine (Fp2 FqW)) : OutputW FqW := (wordPairing [a] [b]).getD 1

theorem wordPair_rep : PairsRep wordPair (fun x y => blsE x y) word1 word2 wordT := fun x y => by
  have h := wordArk_multi [(x, y)]
  simp only [List.map_cons, List.map_nil, List.sum_cons, List.sum_nil, add_zero] at h
  rw [wordPair, h]; rfl

theorem wordArk_returns : Ark.Returns wordArk wordPair word1 word2 := by
  refine ⟨fun x y => ?_, fun xs ys hl => ?_⟩
  · have h := wordArk_multi [(x, y)]
    simp only [List.map_cons, List.map_nil, List.sum_cons, List.sum_nil, add_zero] at h
    rw [wordPair_rep x y]
    exact h
  · have h := wordArk_multi (xs.zip ys)
    have a : (xs.zip ys).map (fun pq => word1 pq.1) = xs.map word1 := by
      refine (List.map_map (g := word1) (f := Prod.fst)).symm.trans ?_
      rw [List.map_fst_zip (by omega)]
    have b : (xs.zip ys).map (fun pq => word2 pq.2) = ys.map word2 := by
      refine (List.map_map (g := word2) (f := Prod.snd)).symm.trans ?_
      rw [List.map_snd_zip (by omega)]
    rw [a, b] at h
    rw [Raw.multiPairing_rep wordPair_rep C128_target]
    refine h.trans (congrArg (fun t => some (wordT t)) ?_)
    rw [Raw.multiPairing, List.map_zip_eq_zipWith (f := fun pq : _ × _ => blsE pq.1 pq.2)]
    exact List.sum_eq_foldl

/-- The verifier on words, with the panics of the pairing. -/
abbrev wordVerify (sch : Scheduler) (crs : CRS (Affine FqW) (Affine (Fp2 FqW)) (OutputW FqW)) (equ : OneEqu (ZMod r381) (Affine FqW) (Affine (Fp2 FqW)) (OutputW FqW))
    (cp : CProof (ZMod r381) (Affine FqW) (Affine (Fp2 FqW))) : ArkRes Bool := OneEqu.verifyArk wordArk sch crs cp equ

/-- C128: the verifier that computes with words does not panic in the pairing, and returns what it returns on the elements of the groups. -/
theorem C128_bls_verify (sch : Scheduler) (crs : CRS (blsG1.torsion r381) (blsG2.torsion r381) (Gt (ZMod p381)))
    (equ : OneEqu (ZMod r381) (blsG1.torsion r381) (blsG2.torsion r381) (Gt (ZMod p381))) (cp : CProof (ZMod r381) (blsG1.torsion r381) (blsG2.torsion r381)) :
    wordVerify sch (crs.rep word1 word2 wordT) (equ.rep word1 word2 wordT) (cp.on word1 word2) = ofRes (equ.verify blsE sch crs cp) := by
  rw [← C122_verify wordPair_rep C128_target C128_bls_carries.1 C128_bls_carries.2]
  exact Ark.verify_returns (jT := wordT) wordArk_returns C128_bls_carries.1 C128_bls_carries.2 sch crs cp equ

theorem rep_words (crs : CRS (blsG1.torsion r381) (blsG2.torsion r381) (Gt (ZMod p381))) : (blsCrsRep crs).rep toW1 toW2 toFqTwelve = crs.rep word1 word2 wordT := by
  simp only [CRS.rep, List.map_map]
  rfl

theorem equ_words (equ : OneEqu (ZMod r381) (blsG1.torsion r381) (blsG2.torsion r381) (Gt (ZMod p381))) : (blsEquRep equ).rep toW1 toW2 toFqTwelve = equ.rep word1 word2 wordT := by
  cases equ with
  | ppe q => simp only [blsEquRep, OneEqu.rep, PPE.rep, List.map_map]; rfl
  | msmeg1 q => simp only [blsEquRep, OneEqu.rep, MSMEG1.on, List.map_map]; rfl
  | msmeg2 q => simp only [blsEquRep, OneEqu.rep, MSMEG2.on, List.map_map]; rfl
  | quad q => rfl

theorem message_words (cp : CProof (ZMod r381) (blsG1.torsion r381) (blsG2.torsion r381)) : (blsMessage cp).on toW1 toW2 = cp.on word1 word2 := by
  simp only [blsMessage, CProof.on, Commit.on, List.map_map]
  congr 1
  refine List.map_congr_left fun pf _ => ?_
  simp only [Function.comp, EquProof.on, List.map_map]
  rfl

/-- The verifier on words, of what was read: points and elements of fields are held as words from then on. -/
noncomputable abbrev readVerify (sch : Scheduler) (crs : CRS (Affine (ZMod p381)) (Affine (Fq2 (ZMod p381))) (Fq12 (ZMod p381)))
    (equ : OneEqu (ZMod r381) (Affine (ZMod p381)) (Affine (Fq2 (ZMod p381))) (Fq12 (ZMod p381)))
    (cp : CProof (ZMod r381) (Affine (ZMod p381)) (Affine (Fq2 (ZMod p381)))) : ArkRes Bool :=
  wordVerify sch (crs.rep toW1 toW2 toFqTwelve) (equ.rep toW1 toW2 toFqTwelve) (cp.on toW1 toW2)

/-- C128: for the bytes of a CRS, an equation and a message, read with validation, the verifier that computes with words accepts exactly what the verifier of C124 accepts. -/
theorem C128_read [MulProjective (ZMod r381) (ZMod p381)] [MulProjective (ZMod r381) (Fq2 (ZMod p381))] (h1 : BlsMul1) (h2 : BlsMul2) (sch : Scheduler)
    (crs : CRS (blsG1.torsion r381) (blsG2.torsion r381) (Gt (ZMod p381)))
    (equ : OneEqu (ZMod r381) (blsG1.torsion r381) (blsG2.torsion r381) (Gt (ZMod p381))) (cp : CProof (ZMod r381) (blsG1.torsion r381) (blsG2.torsion r381)) :
    readVerify sch (blsCrsRep crs) (blsEquRep equ) (blsMessage cp) = blsVerifyArk sch (blsCrsRep crs) (blsEquRep equ) (blsMessage cp) := by
  rw [C124_bls_verify h1 h2, readVerify, rep_words, equ_words, message_words, C128_bls_verify]

theorem asRes_of {α : Type} (x : Res α) : asRes (ofRes x) = x := by cases x <;> rfl

theorem asRes_iff {α : Type} {x : ArkRes α} {a : α} : asRes x = .ok a ↔ x = .ok a := by
  rcases x with (_ | _) | _ <;> simp [asRes]

theorem read_ok {sch : Scheduler} {k : EquType} {m : Compress} {v : Validate} {bsC bsE bsP : Bytes} {b : Bool} :
    receiveAll blsFr (blsG1.blsCodec blsFq) (blsG2.blsCodec blsFq2) blsGt k m v bsC bsE bsP (fun crs equ cp => asRes (readVerify sch crs equ cp)) = .ok (.ok b) ↔
    receiveAll blsFr (blsG1.blsCodec blsFq) (blsG2.blsCodec blsFq2) blsGt k m v bsC bsE bsP (readVerify sch) = .ok (.ok b) := by
  rw [receiveAll_ok, receiveAll_ok]
  simp only [asRes_iff]

/-- C128: soundness, from the bytes to the words. -/
theorem C128_bls_sound (sch : Scheduler) (crs : CRS (blsG1.torsion r381) (blsG2.torsion r381) (Gt (ZMod p381))) (hc : GeneratedCrs blsE crs)
    (h0 : crs.NonzeroGens) (k : EquType) (m : Compress) (rC bsE bsP : Bytes)
    (hm : m = .Yes ∨ k = .PairingProduct ∨ k = .Quadratic ∨ ∀ x rest, blsEquDe k m .Yes bsE = .ok (x, rest) → BlsEquValid x)
    (h : receiveAll blsFr (blsG1.blsCodec blsFq) (blsG2.blsCodec blsFq2) blsGt k m .Yes (blsCrsCodec.ser m (blsCrsRep crs) ++ rC) bsE bsP (readVerify sch) = .ok (.ok true)) :
    ∃ equ rE cp rP, equ.kind = k ∧ blsEquDe k m .Yes bsE = .ok (blsEquRep equ, rE) ∧
      (CProof.codec blsFr (blsG1.blsCodec blsFq) (blsG2.blsCodec blsFq2)).de m .Yes bsP = .ok (blsMessage cp, rP) ∧ equ.Proved blsE crs cp :=
  C121_bls_sound C123_bls_pairs.2 sch crs hc h0 k m rC bsE bsP hm (fun crs equ cp => asRes (readVerify sch crs equ cp))
    (fun crs equ cp => by rw [readVerify, rep_words, equ_words, message_words, C128_bls_verify, asRes_of]) (read_ok.mpr h)

section
variable {ρ : Type} [Rng ρ (ZMod r381) (blsG1.torsion r381) (blsG2.torsion r381)] [Rng ρ (ZMod r381) (Affine FqW) (Affine (Fp2 FqW))]

/-- C128: the prover that computes with words: its messages are the words of those over the groups, it draws as much, and it panics in the same cases. -/
theorem C128_bls_prove (hr : SameScalars ρ (ZMod r381) (blsG1.torsion r381) (blsG2.torsion r381) (Affine FqW) (Affine (Fp2 FqW))) (sch : Nat → Scheduler)
    (crs : CRS (blsG1.torsion r381) (blsG2.torsion r381) (Gt (ZMod p381))) (rng : ρ) :
    (∀ (equ : PPE (ZMod r381) (blsG1.torsion r381) (blsG2.torsion r381) (Gt (ZMod p381))) x y,
      (equ.rep word1 word2 wordT).commitAndProveRaw sch (x.map word1) (y.map word2) (crs.rep word1 word2 wordT) rng =
        (equ.commitAndProve sch x y crs rng).map (Prod.map (CProof.on word1 word2) id)) ∧
    (∀ (equ : MSMEG1 (ZMod r381) (blsG1.torsion r381)) x y, (equ.on word1).commitAndProveRaw sch (x.map word1) y (crs.rep word1 word2 wordT) rng =
      (equ.commitAndProve sch x y crs rng).map (Prod.map (CProof.on word1 word2) id)) ∧
    (∀ (equ : MSMEG2 (ZMod r381) (blsG2.torsion r381)) x y, (equ.on word2).commitAndProveRaw sch x (y.map word2) (crs.rep word1 word2 wordT) rng =
      (equ.commitAndProve sch x y crs rng).map (Prod.map (CProof.on word1 word2) id)) ∧
    (∀ (equ : QuadEqu (ZMod r381)) x y, equ.commitAndProveRaw sch x y (crs.rep word1 word2 wordT) rng =
      (equ.commitAndProve sch x y crs rng).map (Prod.map (CProof.on word1 word2) id)) :=
  C122_commit_and_prove C128_bls_carries.1 C128_bls_carries.2 hr sch crs rng

end

/-- C128: completeness for statements, in words from beginning to end. The prover does not panic, and the verifier returns true for every equation. -/
theorem C128_bls_honest {ρ : Type} [Rng ρ (ZMod r381) (Affine FqW) (Affine (Fp2 FqW))] (sch : Nat → Nat → Scheduler) (sch' : Scheduler)
    (crs : CRS (blsG1.torsion r381) (blsG2.torsion r381) (Gt (ZMod p381))) (hc : GeneratedCrs blsE crs)
    (qs : List (AnyEqu (ZMod r381) (blsG1.torsion r381) (blsG2.torsion r381) (Gt (ZMod p381)))) (w : Vars (ZMod r381) (blsG1.torsion r381) (blsG2.torsion r381))
    (hf : ∀ q ∈ qs, q.Fits w) (h : ∀ q ∈ qs, q.Holds blsE w) (rng : ρ) :
    ∃ r rng', proveStatementRaw sch (qs.map (AnyEqu.rep word1 word2 wordT)) (w.rep word1 word2) (crs.rep word1 word2 wordT) rng = .ok (r, rng') ∧
      verifyStatement (fun q cp => wordVerify sch' (crs.rep word1 word2 wordT) q.one cp) (sentMessages r).1 (sentMessages r).2
        (qs.map (AnyEqu.rep word1 word2 wordT)) (sentMessages r).1.equ_proofs = .ok true := by
  let : Rng ρ (ZMod r381) (blsG1.torsion r381) (blsG2.torsion r381) :=
    ⟨Rng.randF (Affine FqW) (Affine (Fp2 FqW)), fun s => (0, s), fun s => (0, s)⟩
  have hp := C125_program (jT := wordT) C128_bls_carries.1 C128_bls_carries.2
    (fun _ => rfl : SameScalars ρ (ZMod r381) (blsG1.torsion r381) (blsG2.torsion r381) (Affine FqW) (Affine (Fp2 FqW))) sch qs w crs rng
  have hl : crs.u.length = 2 ∧ crs.v.length = 2 := by obtain ⟨_, _, rng, rfl⟩ := hc; exact ⟨rfl, rfl⟩
  obtain ⟨c, pfs, rng', k, kv⟩ := C60_statement (e := blsE) hl.1 hl.2 sch qs w hf h rng
  rw [k] at hp
  refine ⟨_, _, hp, ?_⟩
  rw [verifyStatement_true, sentMessages_rep]
  show List.Forall₂ _ (List.map _ qs) (List.map _ (List.map _ pfs))
  rw [List.map_map, List.forall₂_map_left_iff, List.forall₂_map_right_iff]
  refine kv.imp fun q pf hk => ?_
  have hm : q.message ((sentMessages (c, pfs)).1.on word1 word2) ((sentMessages (c, pfs)).2.on word1 word2) (pf.bare.on word1 word2) =
      (q.message (sentMessages (c, pfs)).1 (sentMessages (c, pfs)).2 pf.bare).on word1 word2 := by cases q <;> rfl
  show wordVerify sch' _ (q.rep word1 word2 wordT).one ((q.rep word1 word2 wordT).message _ _ (pf.bare.on word1 word2)) = _
  rw [message_rep, hm, one_rep, C128_bls_verify, verify_sent q sch' c pfs pf crs (hk sch')]
  rfl

/-- C128: `generate_crs`, from generators in words. It does not panic, and gives the words of the CRS. -/
theorem C128_bls_generate {ρ : Type} [Rng ρ (ZMod r381) (Projective FqW) (Projective (Fp2 FqW))] [Rng ρ (ZMod r381) (blsG1.torsion r381) (blsG2.torsion r381)]
    (hF : SameScalars ρ (ZMod r381) (blsG1.torsion r381) (blsG2.torsion r381) (Projective FqW) (Projective (Fp2 FqW)))
    (hG1 : ∀ s : ρ, ∃ (P : Projective FqW) (p : blsG1.torsion r381) (s' : ρ), Rng.randG1 (ZMod r381) (Projective (Fp2 FqW)) s = (P, s') ∧
      Rng.randG1 (ZMod r381) (blsG2.torsion r381) s = (p, s') ∧ (valJ ofFq P).Of (incl1 leFq p))
    (hG2 : ∀ s : ρ, ∃ (P : Projective (Fp2 FqW)) (p : blsG2.torsion r381) (s' : ρ), Rng.randG2 (ZMod r381) (Projective FqW) s = (P, s') ∧
      Rng.randG2 (ZMod r381) (blsG1.torsion r381) s = (p, s') ∧ (valJ (val2 ofFq) P).Of (incl2 leFq p)) (rng : ρ) :
    generateW (F := ZMod r381) wordArk.one rng = some ((generateCrs blsE rng).1.rep word1 word2 wordT, (generateCrs blsE rng).2) := by
  let i1 := glvMethod (ZMod p381)
  let i2 := doubleAndAdd r381 (Fq2 (ZMod p381))
  obtain ⟨P1, p1, s1, a1, a2, a3⟩ := hG1 rng
  obtain ⟨P2, p2, s2, b1, b2, b3⟩ := hG2 s1
  have w1 : ∀ {Q : Projective FqW} {x}, (valJ ofFq Q).intoAffine = blsG1.rep r381 x → intoAffineW Q = word1 x := fun h => injW1 (by rw [valA_intoAffine modelsFq, h, word1, of_toW1])
  have w2 : ∀ {Q : Projective (Fp2 FqW)} {x}, (valJ (val2 ofFq) Q).intoAffine = blsG2.rep r381 x → intoAffineW Q = word2 x := fun h =>
    injW2 (by rw [valA_intoAffine modelsFq2, h, word2, of_toW2])
  unfold generateW generateCrs
  simp only [a1, a2, b1, b2, hF _]
  generalize (Rng.randF (blsG1.torsion r381) (blsG2.torsion r381) s2 : ZMod r381 × ρ) = x1
  generalize (Rng.randF (blsG1.torsion r381) (blsG2.torsion r381) x1.2 : ZMod r381 × ρ) = x2
  generalize (Rng.randF (blsG1.torsion r381) (blsG2.torsion r381) x2.2 : ZMod r381 × ρ) = x3
  generalize (Rng.randF (blsG1.torsion r381) (blsG2.torsion r381) x3.2 : ZMod r381 × ρ) = x4
  have key := (C122_bls_crs C122_methods.1 C122_methods.2.2 C123_bls_pairs.1 a3 b3 x1.1 x2.1 x3.1 x4.1).1
  have ku := congrArg CRS.u key
  have kv := congrArg CRS.v key
  simp only [assembleCoord, prepareRealCoord, CRS.rep, assembleCrs, prepareRealBindingKey, List.map_cons, List.map_nil, Com.on, List.cons.injEq, Com.mk.injEq, and_true] at ku kv
  obtain ⟨⟨c1, c2⟩, c3, c4⟩ := ku
  obtain ⟨⟨d1, d2⟩, d3, d4⟩ := kv
  rw [← word_mul1] at c2 c3
  rw [← word_mul1, ← word_mul1, ← valJ_zero modelsFq, ← valJ_sub modelsFq] at c4
  rw [← word_mul2] at d2 d3
  rw [← word_mul2, ← word_mul2, ← valJ_zero modelsFq2, ← valJ_sub modelsFq2] at d4
  rw [w1 c1, w1 c2, w1 c3, w1 c4, w2 d1, w2 d2, w2 d3, w2 d4, wordArk_returns.1, wordPair_rep]
  rfl

/-- C128: completeness, from the words of the prover to the bytes and to the words of the verifier. -/
theorem C128_bls_received {ρ : Type} [Rng ρ (ZMod r381) (blsG1.torsion r381) (blsG2.torsion r381)] [Rng ρ (ZMod r381) (Affine FqW) (Affine (Fp2 FqW))]
    (hr : SameScalars ρ (ZMod r381) (blsG1.torsion r381) (blsG2.torsion r381) (Affine FqW) (Affine (Fp2 FqW))) (sch : Nat → Scheduler) (sch' : Scheduler)
    (crs : CRS (blsG1.torsion r381) (blsG2.torsion r381) (Gt (ZMod p381))) (hc : GeneratedCrs blsE crs) (rng : ρ) (m : Compress) (v : Validate) (rC rE rP : Bytes)
    (equ : PPE (ZMod r381) (blsG1.torsion r381) (blsG2.torsion r381) (Gt (ZMod p381))) (x : List (blsG1.torsion r381)) (y : List (blsG2.torsion r381))
    (hx : x ≠ []) (hy : y ≠ []) (fx : Fits64 x) (fy : Fits64 y) (hd : equ.Dims x.length y.length) (hs : equ.Holds blsE x y) :
    ∃ msg rng', (equ.rep word1 word2 wordT).commitAndProveRaw sch (x.map word1) (y.map word2) (crs.rep word1 word2 wordT) rng = .ok (msg, rng') ∧
      receiveAll blsFr (blsG1.blsCodec blsFq) (blsG2.blsCodec blsFq2) blsGt .PairingProduct m v (blsCrsCodec.ser m (blsCrsRep crs) ++ rC)
        ((blsEquRep (.ppe equ)).ser blsFr (blsG1.blsCodec blsFq) (blsG2.blsCodec blsFq2) blsGt m ++ rE)
        ((CProof.codec blsFr (blsG1.blsCodec blsFq) (blsG2.blsCodec blsFq2)).ser m (msg.on (valA ofFq) (valA (val2 ofFq))) ++ rP) (readVerify sch') = .ok (.ok true) := by
  obtain ⟨cp, rng', h, hw⟩ := (C121_bls_honest sch sch' crs hc rng m v rC rE rP (fun crs equ cp => asRes (readVerify sch' crs equ cp))
    (fun crs equ cp => by rw [readVerify, rep_words, equ_words, message_words, C128_bls_verify, asRes_of])).1 equ x y hx hy fx fy hd hs
  have e : (cp.on word1 word2).on (valA ofFq) (valA (val2 ofFq)) = blsMessage cp := by
    rw [← message_words, CProof.on_on of_toW1 of_toW2]
  refine ⟨cp.on word1 word2, rng', by rw [(C128_bls_prove hr sch crs rng).1, h]; rfl, ?_⟩
  rw [e]
  exact read_ok.mp hw

end bls

namespace Ex

/-- The point `(0, 2)` in words, with two coordinates. -/
theorem wordFour : ∃ P Q : Projective FqW, ∃ Q' : Affine FqW, P ≠ Q ∧ (valJ ofFq P).Of qFour ∧ (valJ ofFq Q).Of qFour ∧ valA ofFq Q' = coordsOf qFour := by
  refine ⟨⟨toFq 0, toFq 16, toFq 2⟩, intoGroupW (toW1 (coordsOf qFour)), toW1 (coordsOf qFour), ?_, ?_, ?_, of_toW1 _⟩
  · intro h
    have h' := congrArg (fun P => ofFq P.z) h
    rw [show (intoGroupW (toW1 (coordsOf qFour))).z = 1 from rfl] at h'
    simp only [ofFq_toFq, modelsFq.one] at h'
    exact one_ne_zero (α := ZMod p381) (by linear_combination h')
  · simp only [valJ, ofFq_toFq]
    exact qFour_of
  · rw [valJ_intoGroup modelsFq, of_toW1]
    exact Projective.intoGroup_of qFour

/-- Words of equal points with other coordinates: their sum is the double, and their difference zero. -/
example : ∃ P Q : Projective FqW, P ≠ Q ∧ sameW P Q = true ∧ (valJ ofFq (addW P Q)).Of (qFour + qFour) ∧ (valJ ofFq (subW P Q)).Of (0 : (cubic (4 : ZMod p381)).Point) := by
  obtain ⟨P, Q, Q', hne, hP, hQ, hQ'⟩ := wordFour
  obtain ⟨-, h1, -, -, h2, h3, -⟩ := C128_formulas modelsFq (p381_two (fq_zero (ZMod.card p381))) hP hQ hQ'
  rw [sub_self] at h2
  exact ⟨P, Q, hne, h3.2 rfl, h1, h2⟩

/-- The generator of the first group in words. -/
example {k : Nat} (hk : k < r381) : (valJ ofFq (glvMulW (toFq beta1) (intoGroupW (toW1 (coordsOf (g1Point (fq_zero (ZMod.card p381)))))) k)).Of (k • g1Point (fq_zero (ZMod.card p381))) := by
  refine C128_glv (ZMod.card p381) modelsFq (ofFq_toFq _) ?_ (g1Point_killed (fq_zero (ZMod.card p381))) hk
  rw [valJ_intoGroup modelsFq, of_toW1]
  exact Projective.intoGroup_of _

/-- The constants of the tests in words. -/
example (P : Affine FqW) (Q : Affine (Fp2 FqW)) := C128_tests (ZMod.card p381) modelsFq (ofFq_toFq beta1) (of_toFqPair (toFq2 coeff0)) (of_toFqPair (toFq2 coeff1)) P Q

noncomputable instance : Rng Nat (ZMod r381) (Affine FqW) (Affine (Fp2 FqW)) := ⟨fun s => Rng.randF BH1 BH2 s, fun s => (0, s), fun s => (0, s)⟩

/-- A statement with an equation of each kind, proved and verified in words. -/
example (sch : Nat → Nat → Scheduler) (sch' : Scheduler) := C128_bls_honest sch sch' crsE crsE_generated stmtE varsE stmtE_fits stmtE_holds (5 : Nat)

/-- Random values in words: those of the groups. -/
noncomputable instance : Rng Nat (ZMod r381) (Projective FqW) (Projective (Fp2 FqW)) where
  randF s := Rng.randF BH1 BH2 s
  randG1 s := (intoGroupW (word1 (Rng.randG1 (ZMod r381) BH2 s).1), (Rng.randG1 (ZMod r381) BH2 s : BH1 × Nat).2)
  randG2 s := (intoGroupW (word2 (Rng.randG2 (ZMod r381) BH1 s).1), (Rng.randG2 (ZMod r381) BH1 s : BH2 × Nat).2)

theorem word1_of (x : BH1) : (valJ ofFq (intoGroupW (word1 x))).Of (incl1 leFq x) := by
  rw [valJ_intoGroup modelsFq, word1, of_toW1]
  exact rep1_of x

theorem word2_of (x : BH2) : (valJ (val2 ofFq) (intoGroupW (word2 x))).Of (incl2 leFq x) := by
  rw [valJ_intoGroup modelsFq2, word2, of_toW2]
  exact rep2_of x

example : generateW (F := ZMod r381) wordArk.one (1 : Nat) = some (crsE.rep word1 word2 wordT, (generateCrs blsE (1 : Nat)).2) :=
  C128_bls_generate (fun _ => rfl)
    (fun s => ⟨intoGroupW (word1 (Rng.randG1 (ZMod r381) BH2 s).1), (Rng.randG1 (ZMod r381) BH2 s).1, (Rng.randG1 (ZMod r381) BH2 s : BH1 × Nat).2, rfl, rfl, word1_of _⟩)
    (fun s => ⟨intoGroupW (word2 (Rng.randG2 (ZMod r381) BH1 s).1), (Rng.randG2 (ZMod r381) BH1 s).1, (Rng.randG2 (ZMod r381) BH1 s : BH2 × Nat).2, rfl, rfl, word2_of _⟩) 1

/-- An honest proof, made in words, is accepted in words. -/
example (sch : Nat → Scheduler) (m : Compress) :
    ∃ bsC bsE bsP, receiveAll blsFr (blsG1.blsCodec blsFq) (blsG2.blsCodec blsFq2) blsGt .PairingProduct m .Yes bsC bsE bsP (readVerify seqSched) = .ok (.ok true) ∧
    ∃ equ rE cp rP, equ.kind = .PairingProduct ∧ blsEquDe .PairingProduct m .Yes bsE = .ok (blsEquRep equ, rE) ∧
      (CProof.codec blsFr (blsG1.blsCodec blsFq) (blsG2.blsCodec blsFq2)).de m .Yes bsP = .ok (blsMessage cp, rP) ∧ equ.Proved blsE crsE cp := by
  obtain ⟨msg, rng', h, hr⟩ := C128_bls_received (fun _ => rfl) sch seqSched crsE crsE_generated (5 : Nat) m .Yes [1] [2] [3] ppeE [logB1.symm 1] [logB2.symm 2]
    (by simp) (by simp) (by simp [Fits64]) (by simp [Fits64]) ⟨rfl, rfl, rfl, by simp [ppeE]⟩ ppeE_holds
  exact ⟨_, _, _, hr, C128_bls_sound seqSched crsE crsE_generated crsE_nonzero _ m _ _ _ (.inr (.inl rfl)) hr⟩

end Ex

end GS
