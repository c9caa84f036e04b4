import Verif.Lemmas.PairSum
import Verif.Props.Coord

/-!
# C123: the pairing of BLS12-381

`E::pairing` and `E::multi_pairing` of the curve used by the tests and benchmarks, computed by Miller's loop and the final exponentiation, are what the other properties
assume of a pairing.
-/

set_option linter.unusedSectionVars false

namespace GS
open Polynomial

section all
variable {K : Type} [Field K] [DecidableEq K] [Fintype K] [Fact (∀ r : K, r ^ 2 ≠ -1 + 0 * r)] [Fact (Irreducible (X ^ 3 - C (xiFq6 K)))]
  [Fact (∀ b : Fq6 K, b ^ 2 ≠ xiFq12 K + 0 * b)] (hc : Fintype.card K = p381)
include hc

/-- C123: the final exponentiation fails for 0 only, is a power, and ends in the target group. -/
theorem C123_final_exponentiation (f : Fq12 K) :
    (finalExponentiation f = none ↔ f = 0) ∧
    (f ≠ 0 → finalExponentiation f = some (f ^ (3 * ((p381 ^ 12 - 1) / r381)))) ∧
    ∀ g, finalExponentiation f = some g → g ^ r381 = 1 := by
  classical
  rw [finalExponentiation_eq hc]
  by_cases hf : f = 0
  · rw [if_pos hf]
    exact ⟨⟨fun _ => hf, fun _ => rfl⟩, fun h => absurd hf h, fun g h => by cases h⟩
  · rw [if_neg hf]
    refine ⟨⟨fun h => absurd h (by simp), fun h => absurd h hf⟩, fun _ => rfl, fun g h => ?_⟩
    rw [← Option.some.inj h]
    exact finalExp_root hc hf

/-- C123: for all coordinates, of points of the groups, of other points of the curves and of none, `multi_pairing` is the sum of the pairings, fails if one of them
fails, and panics if the lengths differ; and what it returns is in the target group. -/
theorem C123_multi_pairing (a : List (Affine K)) (b : List (Affine (Fq2 K))) :
    (a.length = b.length → arkMultiPairing a b = ((a.zip b).mapM fun pq => arkPairing pq.1 pq.2).map rustSum) ∧
    (a.length ≠ b.length → arkMultiPairing a b = none) ∧
    ∀ t : PairingOutput K, arkMultiPairing a b = some t → (show Fq12 K from t) ^ r381 = 1 := by
  refine ⟨fun h => by rw [arkMultiPairing_eq hc, if_pos h], fun h => by rw [arkMultiPairing_eq hc, if_neg h], fun t h => ?_⟩
  rw [arkMultiPairing] at h
  cases hm : multiMillerLoop a b with
  | none => rw [hm] at h; cases h
  | some f =>
    rw [hm] at h
    exact (C123_final_exponentiation hc f).2.2 t h

end all

section off
variable {K : Type} [Field K] [DecidableEq K] [Fintype K] [Fact (∀ r : K, r ^ 2 ≠ -1 + 0 * r)] [Fact (Irreducible (X ^ 3 - C (xiFq6 K)))]
  [Fact (∀ b : Fq6 K, b ^ 2 ≠ xiFq12 K + 0 * b)] (hc : Fintype.card K = p381)
include hc

/-- C123, finding: coordinates that are not on the curves, which reading without validation lets through, can make the pairing panic. -/
theorem C123_off_curve_panics : arkPairing (⟨0, 0, false⟩ : Affine K) ⟨0, 0, false⟩ = none :=
  arkPairing_origin hc

end off

section bls

/-- C123, BLS12-381: on the points of the groups `pairing` does not fail, is bilinear, and is zero only if one of the points is. -/
theorem C123_pairing : ∃ e : blsG1.torsion r381 →ₗ[ZMod r381] blsG2.torsion r381 →ₗ[ZMod r381] Gt (ZMod p381),
    (∀ P Q, arkPairing (blsG1.rep r381 P) (blsG2.rep r381 Q) = some (gtOut (e P Q))) ∧ (∀ P Q, e P Q = 0 ↔ P = 0 ∨ Q = 0) ∧
    ∀ e' : blsG1.torsion r381 → blsG2.torsion r381 → Gt (ZMod p381),
      (∀ P Q, arkPairing (blsG1.rep r381 P) (blsG2.rep r381 Q) = some (gtOut (e' P Q))) → ∀ P Q, e' P Q = e P Q :=
  ⟨blsE, arkPairing_bls, blsE_eq_zero, fun _ h P Q => gtOut_adds.injective (Option.some.inj ((h P Q).symm.trans (arkPairing_bls P Q)))⟩

/-- C123, BLS12-381: on points of the groups `multi_pairing` is the sum of the pairings. -/
theorem C123_bls_multi_pairing (l : List (blsG1.torsion r381 × blsG2.torsion r381)) :
    arkMultiPairing (l.map fun pq => blsG1.rep r381 pq.1) (l.map fun pq => blsG2.rep r381 pq.2) = some (gtOut ((l.map fun pq => blsE pq.1 pq.2).sum)) := by
  rw [(C123_multi_pairing (ZMod.card p381) _ _).1 (by rw [List.length_map, List.length_map])]
  exact bls_sum l

/-- C123, BLS12-381: the hypotheses of C119 to C122 on the pairing hold of the pairing of the library. -/
theorem C123_bls_pairs : BlsPairs blsPair blsE ∧ blsE ≠ 0 := by
  refine ⟨fun P Q => ?_, fun h => ?_⟩
  · show (arkPairing _ _).getD 0 = _
    rw [arkPairing_bls]
    rfl
  · obtain ⟨P, hP⟩ := bls_nonzero1
    obtain ⟨Q, hQ⟩ := bls_nonzero2
    rcases (blsE_eq_zero P Q).mp (by rw [h]; rfl) with h | h
    · exact hP h
    · exact hQ h

/-- C123, BLS12-381: so do those of the properties of groups of prime order. -/
theorem C123_bls_prime : PrimeGroups blsE := blsPrime C123_bls_pairs.2

section instances
variable [MulProjective (ZMod r381) (ZMod p381)] [MulProjective (ZMod r381) (Fq2 (ZMod p381))]

/-- C123, BLS12-381: the verifier that computes with coordinates and this pairing. -/
theorem C123_bls_verify (h1 : BlsMul1) (h2 : BlsMul2) (sch : Scheduler) (crs : CRS (blsG1.torsion r381) (blsG2.torsion r381) (Gt (ZMod p381)))
    (equ : OneEqu (ZMod r381) (blsG1.torsion r381) (blsG2.torsion r381) (Gt (ZMod p381))) (cp : CProof (ZMod r381) (blsG1.torsion r381) (blsG2.torsion r381)) :
    blsVerify blsPair sch (blsCrsRep crs) (blsEquRep equ) (blsMessage cp) = equ.verify blsE sch crs cp :=
  C122_bls_verify h1 h2 C123_bls_pairs.1 sch crs equ cp

/-- C123, BLS12-381: `generate_crs`. -/
theorem C123_bls_generate {ρ : Type} [Rng ρ (ZMod r381) (Projective (ZMod p381)) (Projective (Fq2 (ZMod p381)))]
    [Rng ρ (ZMod r381) (blsG1.torsion r381) (blsG2.torsion r381)] (h1 : BlsMul1) (h2 : BlsMul2)
    (hF : SameScalars ρ (ZMod r381) (blsG1.torsion r381) (blsG2.torsion r381) (Projective (ZMod p381)) (Projective (Fq2 (ZMod p381))))
    (hG1 : ∀ s : ρ, ∃ (P : Projective (ZMod p381)) (p : blsG1.torsion r381) (s' : ρ), Rng.randG1 (ZMod r381) (Projective (Fq2 (ZMod p381))) s = (P, s') ∧
      Rng.randG1 (ZMod r381) (blsG2.torsion r381) s = (p, s') ∧ P.Of (incl1 leFq p))
    (hG2 : ∀ s : ρ, ∃ (P : Projective (Fq2 (ZMod p381))) (p : blsG2.torsion r381) (s' : ρ), Rng.randG2 (ZMod r381) (Projective (ZMod p381)) s = (P, s') ∧
      Rng.randG2 (ZMod r381) (blsG1.torsion r381) s = (p, s') ∧ P.Of (incl2 leFq p)) (rng : ρ) :
    generateCoord (F := ZMod r381) blsPair rng = (blsCrsRep (generateCrs blsE rng).1, (generateCrs blsE rng).2) :=
  C122_bls_generate h1 h2 C123_bls_pairs.1 hF hG1 hG2 rng

/-- C123, BLS12-381: soundness, from the bytes, with nothing assumed of the pairing. -/
theorem C123_bls_sound (h1 : BlsMul1) (h2 : BlsMul2) (sch : Scheduler)
    (crs : CRS (blsG1.torsion r381) (blsG2.torsion r381) (Gt (ZMod p381))) (hc : GeneratedCrs blsE crs)
    (h0 : crs.NonzeroGens) (k : EquType) (m : Compress) (rC bsE bsP : Bytes)
    (hm : m = .Yes ∨ k = .PairingProduct ∨ k = .Quadratic ∨ ∀ x rest, blsEquDe k m .Yes bsE = .ok (x, rest) → BlsEquValid x)
    (h : receiveAll blsFr (blsG1.blsCodec blsFq) (blsG2.blsCodec blsFq2) blsGt k m .Yes (blsCrsCodec.ser m (blsCrsRep crs) ++ rC) bsE bsP (blsVerify blsPair sch) =
      .ok (.ok true)) :
    ∃ equ rE cp rP, equ.kind = k ∧ blsEquDe k m .Yes bsE = .ok (blsEquRep equ, rE) ∧
      (CProof.codec blsFr (blsG1.blsCodec blsFq) (blsG2.blsCodec blsFq2)).de m .Yes bsP = .ok (blsMessage cp, rP) ∧ equ.Proved blsE crs cp :=
  C122_bls_sound h1 h2 C123_bls_pairs.1 C123_bls_pairs.2 sch crs hc h0 k m rC bsE bsP hm h

/-- C123, BLS12-381: the same for any CRS. -/
theorem C123_bls_any (h1 : BlsMul1) (h2 : BlsMul2) (sch : Scheduler) (k : EquType) (m : Compress) (bsC bsE bsP : Bytes)
    (hm : m = .Yes ∨ (∀ x rest, blsCrsCodec.de m .Yes bsC = .ok (x, rest) → blsCrsCodec.Valid x) ∧
      (k = .PairingProduct ∨ k = .Quadratic ∨ ∀ x rest, blsEquDe k m .Yes bsE = .ok (x, rest) → BlsEquValid x))
    (h : receiveAll blsFr (blsG1.blsCodec blsFq) (blsG2.blsCodec blsFq2) blsGt k m .Yes bsC bsE bsP (blsVerify blsPair sch) = .ok (.ok true)) :
    ∃ crs rC equ rE cp rP, equ.kind = k ∧ blsCrsCodec.de m .Yes bsC = .ok (blsCrsRep crs, rC) ∧ blsEquDe k m .Yes bsE = .ok (blsEquRep equ, rE) ∧
      (CProof.codec blsFr (blsG1.blsCodec blsFq) (blsG2.blsCodec blsFq2)).de m .Yes bsP = .ok (blsMessage cp, rP) ∧
      (crs.u.length = 2 → crs.v.length = 2 → equ.Binding crs → equ.Extracted blsE crs cp) :=
  C122_bls_any h1 h2 C123_bls_pairs.1 C123_bls_pairs.2 sch k m bsC bsE bsP hm h

/-- C123, BLS12-381: completeness, from the bytes, with nothing assumed of the pairing. -/
theorem C123_bls_honest {ρ : Type} [Rng ρ (ZMod r381) (Affine (ZMod p381)) (Affine (Fq2 (ZMod p381)))] (h1 : BlsMul1) (h2 : BlsMul2)
    (sch : Nat → Scheduler) (sch' : Scheduler)
    (crs : CRS (blsG1.torsion r381) (blsG2.torsion r381) (Gt (ZMod p381))) (hc : GeneratedCrs blsE crs) (rng : ρ) (m : Compress) (v : Validate) (rC rE rP : Bytes) :
    let accepts := fun equ msg => receiveAll blsFr (blsG1.blsCodec blsFq) (blsG2.blsCodec blsFq2) blsGt (OneEqu.kind equ) m v (blsCrsCodec.ser m (blsCrsRep crs) ++ rC)
      (equ.ser blsFr (blsG1.blsCodec blsFq) (blsG2.blsCodec blsFq2) blsGt m ++ rE)
      ((CProof.codec blsFr (blsG1.blsCodec blsFq) (blsG2.blsCodec blsFq2)).ser m msg ++ rP) (blsVerify blsPair sch') = .ok (.ok true)
    let r1 := List.map (blsG1.rep r381)
    let r2 := List.map (blsG2.rep r381)
    (∀ (equ : PPE (ZMod r381) (blsG1.torsion r381) (blsG2.torsion r381) (Gt (ZMod p381))) x y, x ≠ [] → y ≠ [] → Fits64 x → Fits64 y → equ.Dims x.length y.length →
      equ.Holds blsE x y → ∃ msg rng', (equ.rep (blsG1.rep r381) (blsG2.rep r381) gtRep).commitAndProveRaw sch (r1 x) (r2 y) (blsCrsRep crs) rng = .ok (msg, rng') ∧
        accepts (.ppe (equ.rep (blsG1.rep r381) (blsG2.rep r381) gtRep)) msg) ∧
    (∀ (equ : MSMEG1 (ZMod r381) (blsG1.torsion r381)) x y, x ≠ [] → y ≠ [] → Fits64 x → Fits64 y → equ.Dims x.length y.length →
      equ.Holds x y → ∃ msg rng', (equ.on (blsG1.rep r381)).commitAndProveRaw sch (r1 x) y (blsCrsRep crs) rng = .ok (msg, rng') ∧
        accepts (.msmeg1 (equ.on (blsG1.rep r381))) msg) ∧
    (∀ (equ : MSMEG2 (ZMod r381) (blsG2.torsion r381)) x y, x ≠ [] → y ≠ [] → Fits64 x → Fits64 y → equ.Dims x.length y.length →
      equ.Holds x y → ∃ msg rng', (equ.on (blsG2.rep r381)).commitAndProveRaw sch x (r2 y) (blsCrsRep crs) rng = .ok (msg, rng') ∧
        accepts (.msmeg2 (equ.on (blsG2.rep r381))) msg) ∧
    (∀ (equ : QuadEqu (ZMod r381)) x y, x ≠ [] → y ≠ [] → Fits64 x → Fits64 y → equ.Dims x.length y.length →
      equ.Holds x y → ∃ msg rng', equ.commitAndProveRaw sch x y (blsCrsRep crs) rng = .ok (msg, rng') ∧ accepts (.quad equ) msg) :=
  C122_bls_honest h1 h2 C123_bls_pairs.1 sch sch' crs hc rng m v rC rE rP

open scoped Classical in
/-- C123, BLS12-381: the bound of C121 for an attacker who chooses the bytes of an equation and of a message, for the verifier that computes with coordinates and this pairing. -/
theorem C123_bls_adaptive_soundness (h1 : BlsMul1) (h2 : BlsMul2) {n : Nat} (hn : 0 < n) (rC : Bytes) (sch : Scheduler)
    (A : CRS (blsG1.torsion r381) (blsG2.torsion r381) (Gt (ZMod p381)) → EquType × Bytes × Bytes) :
    sampledGame blsE blsG1 (blsG1.byCofactor r381 cofactor1) blsG2 (blsG2.byCofactor r381 cofactor2) n (fun crs =>
      if receiveAll blsFr (blsG1.blsCodec blsFq) (blsG2.blsCodec blsFq2) blsGt (A crs).1 .Yes .Yes (blsCrsCodec.ser .Yes (blsCrsRep crs) ++ rC) (A crs).2.1 (A crs).2.2
          (blsVerify blsPair sch) = .ok (.ok true) ∧
        ¬ ∃ equ rE cp rP, equ.kind = (A crs).1 ∧ blsEquDe (A crs).1 .Yes .Yes (A crs).2.1 = .ok (blsEquRep equ, rE) ∧
          (CProof.codec blsFr (blsG1.blsCodec blsFq) (blsG2.blsCodec blsFq2)).de .Yes .Yes (A crs).2.2 = .ok (blsMessage cp, rP) ∧ equ.Proved blsE crs cp then 1 else 0) <
      1 / 2 ^ 253 :=
  C121_bls_adaptive_soundness C123_bls_pairs.2 hn rC (blsVerify blsPair sch) sch (C123_bls_verify h1 h2 sch) A

end instances

end bls

namespace Ex

example := C123_final_exponentiation (K := ZMod p381) (ZMod.card p381) 2

/-- Coordinates on the curves and off them, the zero of both groups, and more pairs than one chunk holds. -/
example := (C123_multi_pairing (K := ZMod p381) (ZMod.card p381) [⟨1, 1, false⟩, 0, ⟨2, 1, false⟩, ⟨g1x, g1y, false⟩, ⟨1, 1, false⟩]
  [⟨1, 1, false⟩, ⟨1, 1, false⟩, 0, ⟨toFq2 g2x, toFq2 g2y, false⟩, 0]).1 rfl

example := (C123_multi_pairing (K := ZMod p381) (ZMod.card p381) [] [⟨1, 1, false⟩]).2.1 (by simp)

example := C123_off_curve_panics (K := ZMod p381) (ZMod.card p381)

/-- The pairing of points that are not zero is not zero. -/
example : blsE (logB1.symm 1) (logB2.symm 2) ≠ 0 := by
  intro h
  rcases (blsE_eq_zero _ _).mp h with h | h
  · exact one_ne_zero ((AddEquiv.map_eq_zero_iff _).mp h)
  · exact absurd ((AddEquiv.map_eq_zero_iff _).mp h) (by decide +kernel)

example := C123_bls_multi_pairing [(logB1.symm 1, logB2.symm 2), (logB1.symm 3, 0), (logB1.symm 1, logB2.symm 1), (0, 0), (logB1.symm 5, logB2.symm 2)]

noncomputable def crsE : CRS BH1 BH2 BT := (generateCrs blsE (1 : Nat)).1

theorem crsE_generated : GeneratedCrs blsE crsE := ⟨Nat, _, 1, rfl⟩

theorem crsE_nonzero : crsE.NonzeroGens := by
  constructor
  · show logB1.symm 1 ≠ 0
    simp
  · show logB2.symm 1 ≠ 0
    simp

noncomputable def ppeE : PPE (ZMod r381) BH1 BH2 BT := ⟨[0], [0], [[1]], blsE (logB1.symm 1) (logB2.symm 2)⟩

theorem ppeE_holds : ppeE.Holds blsE [logB1.symm 1] [logB2.symm 2] := by
  simp [PPE.Holds, equLhs, ppeE]

/-- An honest proof, made, sent and verified with the arithmetic of the library: the method of Gallant, Lambert and Vanstone in the first group, doubling and adding in the
second, and the pairing. -/
example (sch : Nat → Scheduler) (m : Compress) :
    letI := glvMethod (ZMod p381)
    letI := doubleAndAdd r381 (Fq2 (ZMod p381))
    ∃ bsC bsE bsP, receiveAll blsFr (blsG1.blsCodec blsFq) (blsG2.blsCodec blsFq2) blsGt .PairingProduct m .Yes bsC bsE bsP (blsVerify blsPair seqSched) = .ok (.ok true) ∧
    ∃ equ rE cp rP, equ.kind = .PairingProduct ∧ blsEquDe .PairingProduct m .Yes bsE = .ok (blsEquRep equ, rE) ∧
      (CProof.codec blsFr (blsG1.blsCodec blsFq) (blsG2.blsCodec blsFq2)).de m .Yes bsP = .ok (blsMessage cp, rP) ∧ equ.Proved blsE crsE cp := by
  let := glvMethod (ZMod p381)
  let := doubleAndAdd r381 (Fq2 (ZMod p381))
  obtain ⟨m1, -, m2⟩ := C122_methods
  obtain ⟨msg, rng', h, hr⟩ := (C123_bls_honest m1 m2 sch seqSched crsE crsE_generated (5 : Nat) m .Yes [1] [2] [3]).1 ppeE [logB1.symm 1] [logB2.symm 2]
    (by simp) (by simp) (by simp [Fits64]) (by simp [Fits64]) ⟨rfl, rfl, rfl, by simp [ppeE]⟩ ppeE_holds
  exact ⟨_, _, _, hr, C123_bls_sound m1 m2 seqSched crsE crsE_generated crsE_nonzero _ m _ _ _ (.inr (.inl rfl)) hr⟩

example (k : EquType) (bsC bsE bsP : Bytes) :=
  letI := glvMethod (ZMod p381)
  letI := doubleAndAdd r381 (Fq2 (ZMod p381))
  C123_bls_any C122_methods.1 C122_methods.2.2 seqSched k .Yes bsC bsE bsP (.inl rfl)

example (A : CRS BH1 BH2 BT → EquType × Bytes × Bytes) :=
  letI := glvMethod (ZMod p381)
  letI := doubleAndAdd r381 (Fq2 (ZMod p381))
  C123_bls_adaptive_soundness C122_methods.1 C122_methods.2.2 (n := 100) (by decide) [] seqSched A

end Ex

end GS
