import Verif.Lemmas.Ark
import Verif.Lemmas.CurvePanic
import Verif.Props.Miller

/-!
# C124: when the pairing panics, and what that means for `verify` and `generate_crs`

The verifier and the generator of the model return a panic of their own where `E::pairing` or `E::multi_pairing` of BLS12-381 panics.
-/

set_option linter.unusedSectionVars false

namespace GS
open Polynomial

theorem mapM_none {α β : Type} (f : α → Option β) (l : List α) : l.mapM f = none ↔ ∃ a ∈ l, f a = none := by
  induction l with
  | nil => simp
  | cons a l ih =>
    rw [List.mapM_cons, List.exists_mem_cons_iff, ← ih]
    cases f a <;> cases l.mapM f <;> simp

section points
variable {K : Type} [Field K] [DecidableEq K] [Fintype K] [Fact (∀ r : K, r ^ 2 ≠ -1 + 0 * r)] [Fact (Irreducible (X ^ 3 - C (xiFq6 K)))]
  [Fact (∀ b : Fq6 K, b ^ 2 ≠ xiFq12 K + 0 * b)] (hc : Fintype.card K = p381)
include hc

/-- C124: for all points of the curves, in the groups or not, `pairing` panics exactly when neither is zero and 13 times the second is. -/
theorem C124_pairing_panics (P : (cubic (4 : K)).Point) (Q : (cubic (⟨4, 4⟩ : Fq2 K)).Point) :
    arkPairing (coordsOf P) (coordsOf Q) = none ↔ P ≠ 0 ∧ Q ≠ 0 ∧ 13 • Q = 0 := arkPairing_curve hc P Q

/-- C124: and `multi_pairing` exactly when it does for one of the pairs. -/
theorem C124_multi_pairing_panics (l : List ((cubic (4 : K)).Point × (cubic (⟨4, 4⟩ : Fq2 K)).Point)) :
    arkMultiPairing (l.map fun pq => coordsOf pq.1) (l.map fun pq => coordsOf pq.2) = none ↔ ∃ pq ∈ l, pq.1 ≠ 0 ∧ pq.2 ≠ 0 ∧ 13 • pq.2 = 0 := by
  rw [(C123_multi_pairing hc _ _).1 (by rw [List.length_map, List.length_map]), Option.map_eq_none_iff, List.zip_map', List.mapM_map, mapM_none]
  simp only [← arkPairing_curve hc]
  rfl

/-- C124, finding: there are such points, on the curve and not in the group. -/
theorem C124_order_13 : ∃ Q : (cubic (⟨4, 4⟩ : Fq2 K)).Point, Q ≠ 0 ∧ 13 • Q = 0 ∧ r381 • Q ≠ 0 := by
  obtain ⟨Q, hQ, h13⟩ := exists_13 hc
  refine ⟨Q, hQ, h13, fun h => hQ ?_⟩
  have h1 := addOrderOf_dvd_of_nsmul_eq_zero h
  have h2 := addOrderOf_dvd_of_nsmul_eq_zero h13
  have := addOrderOf_dvd_iff_nsmul_eq_zero.mp (Nat.dvd_gcd h1 h2)
  rwa [show Nat.gcd r381 13 = 1 by decide +kernel, one_nsmul] at this

end points

section bls
variable [MulProjective (ZMod r381) (ZMod p381)] [MulProjective (ZMod r381) (Fq2 (ZMod p381))]

/-- The verifier on coordinates, with the panics of the pairing. -/
noncomputable abbrev blsVerifyArk (sch : Scheduler) (crs : CRS (Affine (ZMod p381)) (Affine (Fq2 (ZMod p381))) (Fq12 (ZMod p381)))
    (equ : OneEqu (ZMod r381) (Affine (ZMod p381)) (Affine (Fq2 (ZMod p381))) (Fq12 (ZMod p381)))
    (cp : CProof (ZMod r381) (Affine (ZMod p381)) (Affine (Fq2 (ZMod p381)))) : ArkRes Bool :=
  OneEqu.verifyArk (RT := PairingOutput (ZMod p381)) blsArk sch crs cp equ

omit [MulProjective (ZMod r381) (ZMod p381)] [MulProjective (ZMod r381) (Fq2 (ZMod p381))] in
theorem blsArk_agrees : Ark.Agrees blsArk blsPair := by
  refine ⟨fun x y t h => ?_, fun xs ys t hl h => ?_⟩
  · show t = (arkPairing x y).getD 0
    rw [show arkPairing x y = some t from h]
    rfl
  · have h' : arkMultiPairing xs ys = some t := h
    rw [(C123_multi_pairing (ZMod.card p381) _ _).1 hl] at h'
    obtain ⟨l, h1, h2⟩ := Option.map_eq_some_iff.mp h'
    rw [← h2, Raw.multiPairing]
    congr 1
    have key : ∀ (z : List (Affine (ZMod p381) × Affine (Fq2 (ZMod p381)))) (l : List (PairingOutput (ZMod p381))),
        z.mapM (fun pq => arkPairing pq.1 pq.2) = some l → l = z.map fun pq => blsPair pq.1 pq.2 := by
      intro z
      induction z with
      | nil => intro l h; simpa using h.symm
      | cons a z ih =>
        intro l h
        rw [List.mapM_cons] at h
        cases ha : arkPairing a.1 a.2 with
        | none => simp [ha] at h
        | some w =>
          cases hz : z.mapM (fun pq => arkPairing pq.1 pq.2) with
          | none => simp [ha, hz] at h
          | some m =>
            simp only [ha, hz, Option.bind_eq_bind, Option.bind_some, Option.pure_def, Option.some.injEq] at h
            rw [← h, List.map_cons, ← ih m hz, blsPair, ha]
            rfl
    rw [key _ l h1]
    exact List.map_zip_eq_zipWith

omit [MulProjective (ZMod r381) (ZMod p381)] [MulProjective (ZMod r381) (Fq2 (ZMod p381))] in
theorem blsArk_returns : Ark.Returns blsArk blsPair (blsG1.rep r381) (blsG2.rep r381) := by
  refine ⟨fun x y => ?_, fun xs ys hl => ?_⟩
  · show arkPairing _ _ = some ((arkPairing _ _).getD 0)
    rw [arkPairing_bls]
    rfl
  · have h := C123_bls_multi_pairing (xs.zip ys)
    have a : (xs.zip ys).map (fun pq => blsG1.rep r381 pq.1) = xs.map (blsG1.rep r381) := by
      refine (List.map_map (g := blsG1.rep r381) (f := Prod.fst)).symm.trans ?_
      rw [List.map_fst_zip (by omega)]
    have b : (xs.zip ys).map (fun pq => blsG2.rep r381 pq.2) = ys.map (blsG2.rep r381) := by
      refine (List.map_map (g := blsG2.rep r381) (f := Prod.snd)).symm.trans ?_
      rw [List.map_snd_zip (by omega)]
    rw [a, b] at h
    exact h.trans (congrArg some (blsArk_agrees.2 _ _ _ (by simpa using hl) h))

/-- C124, BLS12-381: for all coordinates, of points of the groups, of other points and of none, `verify` returns what it returns when the pairing has a value wherever it
panics, or it panics. In particular what C123 says of an answer of `verify` holds. -/
theorem C124_verify_or_panic (sch : Scheduler) (crs : CRS (Affine (ZMod p381)) (Affine (Fq2 (ZMod p381))) (Fq12 (ZMod p381)))
    (equ : OneEqu (ZMod r381) (Affine (ZMod p381)) (Affine (Fq2 (ZMod p381))) (Fq12 (ZMod p381)))
    (cp : CProof (ZMod r381) (Affine (ZMod p381)) (Affine (Fq2 (ZMod p381)))) :
    blsVerifyArk sch crs equ cp = ofRes (blsVerify blsPair sch crs equ cp) ∨ blsVerifyArk sch crs equ cp = .error .pairing :=
  Ark.verify_refines (RT := PairingOutput (ZMod p381)) blsArk_agrees sch crs cp equ

/-- C124, BLS12-381: on points of the groups, which is what reading with validation gives, the pairing does not panic, and `verify` returns what it returns on the elements. -/
theorem C124_bls_verify (h1 : BlsMul1) (h2 : BlsMul2) (sch : Scheduler) (crs : CRS (blsG1.torsion r381) (blsG2.torsion r381) (Gt (ZMod p381)))
    (equ : OneEqu (ZMod r381) (blsG1.torsion r381) (blsG2.torsion r381) (Gt (ZMod p381))) (cp : CProof (ZMod r381) (blsG1.torsion r381) (blsG2.torsion r381)) :
    blsVerifyArk sch (blsCrsRep crs) (blsEquRep equ) (blsMessage cp) = ofRes (equ.verify blsE sch crs cp) := by
  rw [← C123_bls_verify h1 h2]
  exact Ark.verify_returns (RT := PairingOutput (ZMod p381)) (jT := gtOut) blsArk_returns (C122_bls_carries h1 h2).1 (C122_bls_carries h1 h2).2 sch crs cp equ

/-! ### From the bytes -/

/-- What the result is when a panic of the pairing is one of the library. -/
def asRes {α : Type} : ArkRes α → Res α
  | .ok a => .ok a
  | .error (.library p) => .error p
  | .error .pairing => .error .assertFailed

theorem asRes_ofRes {α : Type} (x : Res α) : asRes (ofRes x) = x := by cases x <;> rfl

theorem asRes_ok {α : Type} {x : ArkRes α} {a : α} : asRes x = .ok a ↔ x = .ok a := by
  constructor
  · intro h
    match x, h with
    | .ok _, h => cases h; rfl
    | .error (.library p), h => cases h
    | .error .pairing, h => cases h
  · rintro rfl; rfl

theorem asRes_verify (h1 : BlsMul1) (h2 : BlsMul2) (sch : Scheduler) (crs : CRS (blsG1.torsion r381) (blsG2.torsion r381) (Gt (ZMod p381)))
    (equ : OneEqu (ZMod r381) (blsG1.torsion r381) (blsG2.torsion r381) (Gt (ZMod p381))) (cp : CProof (ZMod r381) (blsG1.torsion r381) (blsG2.torsion r381)) :
    asRes (blsVerifyArk sch (blsCrsRep crs) (blsEquRep equ) (blsMessage cp)) = equ.verify blsE sch crs cp := by
  rw [C124_bls_verify h1 h2, asRes_ofRes]

theorem asRes_receive {sch : Scheduler} {k : EquType} {m : Compress} {v : Validate} {bsC bsE bsP : Bytes} {b : Bool} :
    receiveAll blsFr (blsG1.blsCodec blsFq) (blsG2.blsCodec blsFq2) blsGt k m v bsC bsE bsP (fun crs equ cp => asRes (blsVerifyArk sch crs equ cp)) = .ok (.ok b) ↔
    receiveAll blsFr (blsG1.blsCodec blsFq) (blsG2.blsCodec blsFq2) blsGt k m v bsC bsE bsP (blsVerifyArk sch) = .ok (.ok b) := by
  rw [receiveAll_ok, receiveAll_ok]
  simp only [asRes_ok]

/-- C124, BLS12-381: `generate_crs` does not panic, whatever is drawn. -/
theorem C124_bls_generate {ρ : Type} [Rng ρ (ZMod r381) (Projective (ZMod p381)) (Projective (Fq2 (ZMod p381)))]
    [Rng ρ (ZMod r381) (blsG1.torsion r381) (blsG2.torsion r381)] (h1 : BlsMul1) (h2 : BlsMul2)
    (hF : SameScalars ρ (ZMod r381) (blsG1.torsion r381) (blsG2.torsion r381) (Projective (ZMod p381)) (Projective (Fq2 (ZMod p381))))
    (hG1 : ∀ s : ρ, ∃ (P : Projective (ZMod p381)) (p : blsG1.torsion r381) (s' : ρ), Rng.randG1 (ZMod r381) (Projective (Fq2 (ZMod p381))) s = (P, s') ∧
      Rng.randG1 (ZMod r381) (blsG2.torsion r381) s = (p, s') ∧ P.Of (incl1 leFq p))
    (hG2 : ∀ s : ρ, ∃ (P : Projective (Fq2 (ZMod p381))) (p : blsG2.torsion r381) (s' : ρ), Rng.randG2 (ZMod r381) (Projective (ZMod p381)) s = (P, s') ∧
      Rng.randG2 (ZMod r381) (blsG1.torsion r381) s = (p, s') ∧ P.Of (incl2 leFq p)) (rng : ρ) :
    generateArk (F := ZMod r381) (RT := PairingOutput (ZMod p381)) blsArk rng = .ok (blsCrsRep (generateCrs blsE rng).1, (generateCrs blsE rng).2) := by
  refine Eq.trans ?_ (congrArg Except.ok (C123_bls_generate h1 h2 hF hG1 hG2 rng))
  obtain ⟨P1, p1, s1, a1, a2, a3⟩ := hG1 rng
  obtain ⟨P2, p2, s2, b1, b2, b3⟩ := hG2 s1
  have hp : blsArk.one P1.intoAffine P2.intoAffine = some (blsPair P1.intoAffine P2.intoAffine) := by
    have e1 : P1.intoAffine = blsG1.rep r381 p1 := (Projective.intoAffine_of a3).trans (incl1_rep leFq p1).symm
    have e2 : P2.intoAffine = blsG2.rep r381 p2 := (Projective.intoAffine_of b3).trans (incl2_rep leFq p2).symm
    rw [e1, e2]
    exact blsArk_returns.1 p1 p2
  unfold generateArk generateCoord
  simp only [a1, b1]
  unfold assembleCoord
  simp only [hp]
  rfl

/-- C124, BLS12-381: soundness from the bytes, for the verifier that panics where the pairing does. -/
theorem C124_bls_sound (h1 : BlsMul1) (h2 : BlsMul2) (sch : Scheduler)
    (crs : CRS (blsG1.torsion r381) (blsG2.torsion r381) (Gt (ZMod p381))) (hc : GeneratedCrs blsE crs)
    (h0 : crs.NonzeroGens) (k : EquType) (m : Compress) (rC bsE bsP : Bytes)
    (hm : m = .Yes ∨ k = .PairingProduct ∨ k = .Quadratic ∨ ∀ x rest, blsEquDe k m .Yes bsE = .ok (x, rest) → BlsEquValid x)
    (h : receiveAll blsFr (blsG1.blsCodec blsFq) (blsG2.blsCodec blsFq2) blsGt k m .Yes (blsCrsCodec.ser m (blsCrsRep crs) ++ rC) bsE bsP (blsVerifyArk sch) =
      .ok (.ok true)) :
    ∃ equ rE cp rP, equ.kind = k ∧ blsEquDe k m .Yes bsE = .ok (blsEquRep equ, rE) ∧
      (CProof.codec blsFr (blsG1.blsCodec blsFq) (blsG2.blsCodec blsFq2)).de m .Yes bsP = .ok (blsMessage cp, rP) ∧ equ.Proved blsE crs cp :=
  C121_bls_sound C123_bls_pairs.2 sch crs hc h0 k m rC bsE bsP hm (fun crs equ cp => asRes (blsVerifyArk sch crs equ cp)) (asRes_verify h1 h2 sch) (asRes_receive.mpr h)

/-- C124, BLS12-381: the same for any CRS. -/
theorem C124_bls_any (h1 : BlsMul1) (h2 : BlsMul2) (sch : Scheduler) (k : EquType) (m : Compress) (bsC bsE bsP : Bytes)
    (hm : m = .Yes ∨ (∀ x rest, blsCrsCodec.de m .Yes bsC = .ok (x, rest) → blsCrsCodec.Valid x) ∧
      (k = .PairingProduct ∨ k = .Quadratic ∨ ∀ x rest, blsEquDe k m .Yes bsE = .ok (x, rest) → BlsEquValid x))
    (h : receiveAll blsFr (blsG1.blsCodec blsFq) (blsG2.blsCodec blsFq2) blsGt k m .Yes bsC bsE bsP (blsVerifyArk sch) = .ok (.ok true)) :
    ∃ crs rC equ rE cp rP, equ.kind = k ∧ blsCrsCodec.de m .Yes bsC = .ok (blsCrsRep crs, rC) ∧ blsEquDe k m .Yes bsE = .ok (blsEquRep equ, rE) ∧
      (CProof.codec blsFr (blsG1.blsCodec blsFq) (blsG2.blsCodec blsFq2)).de m .Yes bsP = .ok (blsMessage cp, rP) ∧
      (crs.u.length = 2 → crs.v.length = 2 → equ.Binding crs → equ.Extracted blsE crs cp) :=
  C121_bls_any C123_bls_pairs.2 sch k m bsC bsE bsP hm (fun crs equ cp => asRes (blsVerifyArk sch crs equ cp)) (asRes_verify h1 h2 sch) (asRes_receive.mpr h)

/-- C124, BLS12-381: completeness, from the values to the bytes and back. Nothing panics. -/
theorem C124_bls_honest {ρ : Type} [Rng ρ (ZMod r381) (Affine (ZMod p381)) (Affine (Fq2 (ZMod p381)))] (h1 : BlsMul1) (h2 : BlsMul2)
    (sch : Nat → Scheduler) (sch' : Scheduler)
    (crs : CRS (blsG1.torsion r381) (blsG2.torsion r381) (Gt (ZMod p381))) (hc : GeneratedCrs blsE crs) (rng : ρ) (m : Compress) (v : Validate) (rC rE rP : Bytes) :
    let accepts := fun equ msg => receiveAll blsFr (blsG1.blsCodec blsFq) (blsG2.blsCodec blsFq2) blsGt (OneEqu.kind equ) m v (blsCrsCodec.ser m (blsCrsRep crs) ++ rC)
      (equ.ser blsFr (blsG1.blsCodec blsFq) (blsG2.blsCodec blsFq2) blsGt m ++ rE)
      ((CProof.codec blsFr (blsG1.blsCodec blsFq) (blsG2.blsCodec blsFq2)).ser m msg ++ rP) (blsVerifyArk sch') = .ok (.ok true)
    let r1 := List.map (blsG1.rep r381)
    let r2 := List.map (blsG2.rep r381)
    (∀ (equ : PPE (ZMod r381) (blsG1.torsion r381) (blsG2.torsion r381) (Gt (ZMod p381))) x y, x ≠ [] → y ≠ [] → Fits64 x → Fits64 y → equ.Dims x.length y.length →
      equ.Holds blsE x y → ∃ msg rng', (equ.rep (blsG1.rep r381) (blsG2.rep r381) gtRep).commitAndProveRaw sch (r1 x) (r2 y) (blsCrsRep crs) rng = .ok (msg, rng') ∧
        accepts (.ppe (equ.rep (blsG1.rep r381) (blsG2.rep r381) gtRep)) msg) ∧
    (∀ (equ : MSMEG1 (ZMod r381) (blsG1.torsion r381)) x y, x ≠ [] → y ≠ [] → Fits64 x → Fits64 y → equ.Dims x.length y.length →
      equ.Holds x y → ∃ msg rng', (equ.on (blsG1.rep r381)).commitAndProveRaw sch (r1 x) y (blsCrsRep crs) rng = .ok (msg, rng') ∧
        accepts (.msmeg1 (equ.on (blsG1.rep r381))) msg) ∧
    (∀ (equ : MSMEG2 (ZMod r381) (blsG2.torsion r381)) x y, x ≠ [] → y ≠ [] → Fits64 x → Fits64 y → equ.Dims x.length y.length →
      equ.Holds x y → ∃ msg rng', (equ.on (blsG2.rep r381)).commitAndProveRaw sch x (r2 y) (blsCrsRep crs) rng = .ok (msg, rng') ∧
        accepts (.msmeg2 (equ.on (blsG2.rep r381))) msg) ∧
    (∀ (equ : QuadEqu (ZMod r381)) x y, x ≠ [] → y ≠ [] → Fits64 x → Fits64 y → equ.Dims x.length y.length →
      equ.Holds x y → ∃ msg rng', equ.commitAndProveRaw sch x y (blsCrsRep crs) rng = .ok (msg, rng') ∧ accepts (.quad equ) msg) := by
  intro accepts r1 r2
  letI : Rng ρ (ZMod r381) (blsG1.torsion r381) (blsG2.torsion r381) :=
    ⟨Rng.randF (Affine (ZMod p381)) (Affine (Fq2 (ZMod p381))), fun s => (0, s), fun s => (0, s)⟩
  obtain ⟨c1, c2⟩ := C122_bls_carries h1 h2
  obtain ⟨k1, k2, k3, k4⟩ := C121_bls_honest sch sch' crs hc rng m v rC rE rP (fun crs equ cp => asRes (blsVerifyArk sch' crs equ cp)) (asRes_verify h1 h2 sch')
  obtain ⟨l1, l2, l3, l4⟩ := C122_commit_and_prove (jT := (gtRep : Gt (ZMod p381) → Fq12 (ZMod p381))) c1 c2
    (fun _ => rfl : SameScalars ρ (ZMod r381) (blsG1.torsion r381) (blsG2.torsion r381) (Affine (ZMod p381)) (Affine (Fq2 (ZMod p381)))) sch crs rng
  refine ⟨fun equ x y hx hy fx fy hd hs => ?_, fun equ x y hx hy fx fy hd hs => ?_, fun equ x y hx hy fx fy hd hs => ?_,
    fun equ x y hx hy fx fy hd hs => ?_⟩
  · obtain ⟨cp, rng', h, hw⟩ := k1 equ x y hx hy fx fy hd hs
    exact ⟨_, _, by rw [l1, h]; rfl, asRes_receive.mp hw⟩
  · obtain ⟨cp, rng', h, hw⟩ := k2 equ x y hx hy fx fy hd hs
    exact ⟨_, _, by rw [l2, h]; rfl, asRes_receive.mp hw⟩
  · obtain ⟨cp, rng', h, hw⟩ := k3 equ x y hx hy fx fy hd hs
    exact ⟨_, _, by rw [l3, h]; rfl, asRes_receive.mp hw⟩
  · obtain ⟨cp, rng', h, hw⟩ := k4 equ x y hx hy fx fy hd hs
    exact ⟨_, _, by rw [l4, h]; rfl, asRes_receive.mp hw⟩

open scoped Classical in
/-- C124, BLS12-381: the bound of C121 for this verifier. -/
theorem C124_bls_adaptive_soundness (h1 : BlsMul1) (h2 : BlsMul2) {n : Nat} (hn : 0 < n) (rC : Bytes) (sch : Scheduler)
    (A : CRS (blsG1.torsion r381) (blsG2.torsion r381) (Gt (ZMod p381)) → EquType × Bytes × Bytes) :
    sampledGame blsE blsG1 (blsG1.byCofactor r381 cofactor1) blsG2 (blsG2.byCofactor r381 cofactor2) n (fun crs =>
      if receiveAll blsFr (blsG1.blsCodec blsFq) (blsG2.blsCodec blsFq2) blsGt (A crs).1 .Yes .Yes (blsCrsCodec.ser .Yes (blsCrsRep crs) ++ rC) (A crs).2.1 (A crs).2.2
          (blsVerifyArk sch) = .ok (.ok true) ∧
        ¬ ∃ equ rE cp rP, equ.kind = (A crs).1 ∧ blsEquDe (A crs).1 .Yes .Yes (A crs).2.1 = .ok (blsEquRep equ, rE) ∧
          (CProof.codec blsFr (blsG1.blsCodec blsFq) (blsG2.blsCodec blsFq2)).de .Yes .Yes (A crs).2.2 = .ok (blsMessage cp, rP) ∧ equ.Proved blsE crs cp then 1 else 0) <
      1 / 2 ^ 253 := by
  have h := C121_bls_adaptive_soundness C123_bls_pairs.2 hn rC (fun crs equ cp => asRes (blsVerifyArk sch crs equ cp)) sch (asRes_verify h1 h2 sch) A
  simpa only [asRes_receive] using h

/-- C124, BLS12-381, finding: in a message over the groups for which `verify` returns, whatever it returns, replace the first coordinate of the first element of `pi` by a
point of the curve of order 13. The bytes of that message are read without validation, in both modes, and then `verify` panics. They are not read with validation. -/
theorem C124_message_panics (h1 : BlsMul1) (h2 : BlsMul2) (sch : Scheduler) (crs : CRS (blsG1.torsion r381) (blsG2.torsion r381) (Gt (ZMod p381)))
    (hc : GeneratedCrs blsE crs) (h0 : crs.NonzeroGens) (equ : OneEqu (ZMod r381) (blsG1.torsion r381) (blsG2.torsion r381) (Gt (ZMod p381))) (hE : equ.Fits)
    (cp : CProof (ZMod r381) (blsG1.torsion r381) (blsG2.torsion r381)) (hP : cp.Fits) {b : Bool} (hb : equ.verify blsE sch crs cp = .ok b)
    {pf : EquProof (ZMod r381) (blsG1.torsion r381) (blsG2.torsion r381)} (hp : cp.equ_proofs = [pf]) {c : Com (blsG2.torsion r381)} {ps : List (Com (blsG2.torsion r381))}
    (hpi : pf.pi = c :: ps) {Q : (cubic (⟨4, 4⟩ : Fq2 (ZMod p381))).Point} (hQ : Q ≠ 0) (h13 : 13 • Q = 0) (m : Compress) (rC rE rP : Bytes) :
    let bad := { blsMessage cp with equ_proofs := [{ pf.on (blsG1.rep r381) (blsG2.rep r381) with pi := ⟨coordsOf Q, blsG2.rep r381 c.c1⟩ :: ps.map (Com.on (blsG2.rep r381)) }] }
    let bytes := (CProof.codec blsFr (blsG1.blsCodec blsFq) (blsG2.blsCodec blsFq2)).ser m bad ++ rP
    receiveAll blsFr (blsG1.blsCodec blsFq) (blsG2.blsCodec blsFq2) blsGt equ.kind m .No (blsCrsCodec.ser m (blsCrsRep crs) ++ rC)
      ((blsEquRep equ).ser blsFr (blsG1.blsCodec blsFq) (blsG2.blsCodec blsFq2) blsGt m ++ rE) bytes (blsVerifyArk sch) = .ok (.error .pairing) ∧
    ∀ x, (CProof.codec blsFr (blsG1.blsCodec blsFq) (blsG2.blsCodec blsFq2)).de m .Yes bytes ≠ .ok x := by
  intro bad bytes
  have hQ0 : coordsOf Q = blsG2.coords Q := (g2Curve_coords Q).symm
  have hfin : (coordsOf Q).infinity = false ∧ blsG2.onCurve (coordsOf Q) = true := by
    refine ⟨?_, hQ0 ▸ SWCurve.onCurve_coords blsG2_tests Q⟩
    cases Q with
    | zero => exact absurd rfl hQ
    | some x y h => rfl
  have hretQ : (blsG2.blsCodec blsFq2).strict.Returns m (coordsOf Q) := by
    obtain ⟨-, k, k'⟩ := C114_points (c := blsFq2) blsG2_lawful blsFq2_lawful
    cases m
    · exact (k _).mpr (.inr hfin)
    · exact (k' _).mpr (.inr hfin.1)
  have hel := elems_rep (pF := blsFr.Returns m) (fun a rest => blsFr_lawful.round m .No a rest (by simp)) (bls1_represents.returns m) (bls2_represents.returns m) cp
  have hr : (CProof.codec blsFr (blsG1.blsCodec blsFq) (blsG2.blsCodec blsFq2)).de m .No bytes = .ok (bad, rP) := by
    simp only [bytes]
    rw [message_strict]
    refine C109_round_message blsFr_lawful.orderly bls1_represents.orderly bls2_represents.orderly m .No bad ?_ ?_ (by simp) rP
    · obtain ⟨f1, f2, f3, f4⟩ := (CProof.fits_on (j1 := blsG1.rep r381) (j2 := blsG2.rep r381)).mpr hP
      refine ⟨f1, f2, by simp [bad, Fits64], fun q hq => ?_⟩
      obtain ⟨g1, g2, g3⟩ := f4 (pf.on (blsG1.rep r381) (blsG2.rep r381)) (by simp [CProof.on, hp])
      rw [List.mem_singleton] at hq
      subst hq
      refine ⟨?_, g2, g3⟩
      simpa [Fits64, EquProof.on, hpi] using g1
    · obtain ⟨f1, f2, f4⟩ := hel
      refine ⟨f1, f2, fun q hq => ?_⟩
      obtain ⟨g1, g2, g3⟩ := f4 (pf.on (blsG1.rep r381) (blsG2.rep r381)) (by simp [CProof.on, hp])
      rw [List.mem_singleton] at hq
      subst hq
      refine ⟨fun d hd => ?_, g2, g3⟩
      rcases List.mem_cons.mp hd with rfl | hd
      · exact ⟨hretQ, bls2_represents.returns m _⟩
      · exact g1 d (by simpa [EquProof.on, hpi] using .inr (by simpa using hd))
  constructor
  · have dC := ((strictly_crs blsG1_lawful blsFq_lawful blsG2_lawful blsFq2_lawful C121_gt.1.orderly _ _ _ _ _).mp
      (CRS.round_rep bls1_represents bls2_represents C121_gt.1 m .No crs hc.fits rC)).1
    have dE := ((strictly_equ blsG1_lawful blsFq_lawful blsG2_lawful blsFq2_lawful blsFr_lawful.orderly C121_gt.1.orderly _ _ _ _ _ _).mp
      (OneEqu.round_rep blsFr_lawful blsFr_valid bls1_represents bls2_represents C121_gt.1 m .No equ hE rE)).1
    refine receiveAll_ok.mpr ⟨_, _, blsEquRep equ, rE, _, _, dC, ?_, hr, ?_⟩
    · cases equ <;> exact dE
    · have hv := C124_bls_verify h1 h2 sch crs equ cp
      rw [hb] at hv
      obtain ⟨u0, us, hu, hu0⟩ : ∃ u0 us, crs.u = u0 :: us ∧ u0.c0 ≠ 0 := by
        obtain ⟨ρ, _, rng, rfl⟩ := hc
        exact ⟨_, _, rfl, h0.1⟩
      have hne : coordsOf (incl1 leFq u0.c0) = blsG1.rep r381 u0.c0 := (incl1_rep leFq u0.c0).symm
      have hone : arkPairing (blsG1.rep r381 u0.c0) (coordsOf Q) = none := by
        rw [← hne, C124_pairing_panics (ZMod.card p381)]
        exact ⟨fun h => hu0 (Subtype.ext h), hQ, h13⟩
      refine Ark.verify_panics (RT := PairingOutput (ZMod p381)) (pr := blsArk) (u0 := u0.on (blsG1.rep r381)) (us := us.map (Com.on (blsG1.rep r381))) (c := c.on (blsG2.rep r381)) hv ?_ ?_ ?_ ?_ ?_
      · exact congrArg (List.map _) hu
      · exact congrArg (List.map _) hp
      · exact congrArg (List.map _) hpi
      · exact hone
      · intro xs ys
        show arkMultiPairing _ _ = none
        by_cases hl : xs.length = ys.length
        · rw [(C123_multi_pairing (ZMod.card p381) _ _).1 (by simp [hl]), Option.map_eq_none_iff, mapM_none]
          exact ⟨_, List.mem_cons_self, hone⟩
        · exact (C123_multi_pairing (ZMod.card p381) _ _).2.1 (by simpa using hl)
  · rintro ⟨x, rest⟩ hx
    obtain ⟨hx', q, hq, -⟩ := (C120_read m _ _ _).mp hx
    obtain ⟨rfl, rfl⟩ := Prod.mk.inj (Except.ok.inj (hr.symm.trans hx'))
    have e1 : [{ pf.on (blsG1.rep r381) (blsG2.rep r381) with pi := ⟨coordsOf Q, blsG2.rep r381 c.c1⟩ :: ps.map (Com.on (blsG2.rep r381)) }] =
      q.equ_proofs.map (EquProof.on (blsG1.rep r381) (blsG2.rep r381)) := congrArg CProof.equ_proofs hq
    cases hqe : q.equ_proofs with
    | nil => rw [hqe] at e1; cases e1
    | cons w ws =>
      rw [hqe, List.map_cons] at e1
      have e2 := congrArg EquProof.pi (List.cons.inj e1).1
      change _ = w.pi.map (Com.on (blsG2.rep r381)) at e2
      cases hw : w.pi with
      | nil => rw [hw] at e2; cases e2
      | cons d ds =>
        rw [hw, List.map_cons] at e2
        have e3 : coordsOf Q = blsG2.coords d.c0.1 := congrArg Com.c0 (List.cons.inj e2).1
        have e4 : Q = d.c0.1 := SWCurve.coords_injective (hQ0.symm.trans e3)
        have hrQ : r381 • Q = 0 := e4 ▸ d.c0.2
        have := addOrderOf_dvd_iff_nsmul_eq_zero.mp (Nat.dvd_gcd (addOrderOf_dvd_of_nsmul_eq_zero hrQ) (addOrderOf_dvd_of_nsmul_eq_zero h13))
        rw [show Nat.gcd r381 13 = 1 by decide +kernel, one_nsmul] at this
        exact hQ this

end bls

namespace Ex

theorem qFour_ne : qFour ≠ 0 := by
  intro h
  cases h

/-- The panic is that of points which are not zero. -/
example : ∃ Q : (cubic (⟨4, 4⟩ : Fq2 (ZMod p381))).Point, arkPairing (coordsOf qFour) (coordsOf Q) = none ∧ arkPairing (coordsOf (0 : (cubic (4 : ZMod p381)).Point)) (coordsOf Q) ≠ none := by
  obtain ⟨Q, hQ, h13, -⟩ := C124_order_13 (K := ZMod p381) (ZMod.card p381)
  exact ⟨Q, (C124_pairing_panics (ZMod.card p381) _ _).mpr ⟨qFour_ne, hQ, h13⟩, fun h => ((C124_pairing_panics (ZMod.card p381) _ _).mp h).1 rfl⟩

example : ∃ Q : (cubic (⟨4, 4⟩ : Fq2 (ZMod p381))).Point, Q ≠ 0 ∧
    arkMultiPairing [coordsOf qFour, coordsOf qFour, coordsOf (0 : (cubic (4 : ZMod p381)).Point)] [coordsOf (0 : (cubic (⟨4, 4⟩ : Fq2 (ZMod p381))).Point), coordsOf Q, coordsOf Q] = none := by
  obtain ⟨Q, hQ, h13, -⟩ := C124_order_13 (K := ZMod p381) (ZMod.card p381)
  exact ⟨Q, hQ, (C124_multi_pairing_panics (ZMod.card p381) [(qFour, 0), (qFour, Q), (0, Q)]).mpr ⟨(qFour, Q), by simp, qFour_ne, hQ, h13⟩⟩

/-- Random values in coordinates: those of the groups. -/
noncomputable def coordRng : Rng Nat (ZMod r381) (Projective (ZMod p381)) (Projective (Fq2 (ZMod p381))) where
  randF s := Rng.randF BH1 BH2 s
  randG1 s := ((blsG1.rep r381 (Rng.randG1 (ZMod r381) BH2 s).1).intoGroup, (Rng.randG1 (ZMod r381) BH2 s : BH1 × Nat).2)
  randG2 s := ((blsG2.rep r381 (Rng.randG2 (ZMod r381) BH1 s).1).intoGroup, (Rng.randG2 (ZMod r381) BH1 s : BH2 × Nat).2)

theorem rep1_of (x : BH1) : ((blsG1.rep r381 x).intoGroup).Of (incl1 leFq x) := (congrArg (fun P => Projective.Of (Affine.intoGroup P) (incl1 leFq x)) (incl1_rep leFq x)).mpr (Projective.intoGroup_of _)

theorem rep2_of (x : BH2) : ((blsG2.rep r381 x).intoGroup).Of (incl2 leFq x) := (congrArg (fun P => Projective.Of (Affine.intoGroup P) (incl2 leFq x)) (incl2_rep leFq x)).mpr (Projective.intoGroup_of _)

example :
    letI := glvMethod (ZMod p381)
    letI := doubleAndAdd r381 (Fq2 (ZMod p381))
    letI := coordRng
    generateArk (F := ZMod r381) (RT := PairingOutput (ZMod p381)) blsArk (1 : Nat) = .ok (blsCrsRep crsE, (generateCrs blsE (1 : Nat)).2) :=
  letI := glvMethod (ZMod p381)
  letI := doubleAndAdd r381 (Fq2 (ZMod p381))
  letI := coordRng
  C124_bls_generate C122_methods.1 C122_methods.2.2 (fun _ => rfl) (fun s => ⟨_, _, _, rfl, rfl, rep1_of _⟩)
    (fun s => ⟨_, _, _, rfl, rfl, rep2_of _⟩) 1

/-- An honest proof is accepted, and nothing panics. -/
example (sch : Nat → Scheduler) (m : Compress) :
    letI := glvMethod (ZMod p381)
    letI := doubleAndAdd r381 (Fq2 (ZMod p381))
    ∃ bsC bsE bsP, receiveAll blsFr (blsG1.blsCodec blsFq) (blsG2.blsCodec blsFq2) blsGt .PairingProduct m .Yes bsC bsE bsP (blsVerifyArk seqSched) = .ok (.ok true) ∧
    ∃ equ rE cp rP, equ.kind = .PairingProduct ∧ blsEquDe .PairingProduct m .Yes bsE = .ok (blsEquRep equ, rE) ∧
      (CProof.codec blsFr (blsG1.blsCodec blsFq) (blsG2.blsCodec blsFq2)).de m .Yes bsP = .ok (blsMessage cp, rP) ∧ equ.Proved blsE crsE cp := by
  let := glvMethod (ZMod p381)
  let := doubleAndAdd r381 (Fq2 (ZMod p381))
  obtain ⟨m1, -, m2⟩ := C122_methods
  obtain ⟨msg, rng', h, hr⟩ := (C124_bls_honest m1 m2 sch seqSched crsE crsE_generated (5 : Nat) m .Yes [1] [2] [3]).1 ppeE [logB1.symm 1] [logB2.symm 2]
    (by simp) (by simp) (by simp [Fits64]) (by simp [Fits64]) ⟨rfl, rfl, rfl, by simp [ppeE]⟩ ppeE_holds
  exact ⟨_, _, _, hr, C124_bls_sound m1 m2 seqSched crsE crsE_generated crsE_nonzero _ m _ _ _ (.inr (.inl rfl)) hr⟩

example (k : EquType) (bsC bsE bsP : Bytes) :=
  letI := glvMethod (ZMod p381)
  letI := doubleAndAdd r381 (Fq2 (ZMod p381))
  C124_bls_any C122_methods.1 C122_methods.2.2 seqSched k .Yes bsC bsE bsP (.inl rfl)

example (A : CRS BH1 BH2 BT → EquType × Bytes × Bytes) :=
  letI := glvMethod (ZMod p381)
  letI := doubleAndAdd r381 (Fq2 (ZMod p381))
  C124_bls_adaptive_soundness C122_methods.1 C122_methods.2.2 (n := 100) (by decide) [] seqSched A

/-- Both outcomes of `verify` on coordinates, one after the other: an answer, and a panic of the pairing. -/
example (m : Compress) :
    letI := glvMethod (ZMod p381)
    letI := doubleAndAdd r381 (Fq2 (ZMod p381))
    ∃ (cp : CProof (ZMod r381) BH1 BH2) (b : Bool) (bytes : Bytes), OneEqu.verify blsE seqSched crsE cp (.ppe ppeE) = .ok b ∧
      blsVerifyArk seqSched (blsCrsRep crsE) (blsEquRep (.ppe ppeE)) (blsMessage cp) = .ok b ∧
      receiveAll blsFr (blsG1.blsCodec blsFq) (blsG2.blsCodec blsFq2) blsGt .PairingProduct m .No (blsCrsCodec.ser m (blsCrsRep crsE))
        ((blsEquRep (.ppe ppeE)).ser blsFr (blsG1.blsCodec blsFq) (blsG2.blsCodec blsFq2) blsGt m) bytes (blsVerifyArk seqSched) = .ok (.error .pairing) := by
  let := glvMethod (ZMod p381)
  let := doubleAndAdd r381 (Fq2 (ZMod p381))
  obtain ⟨m1, -, m2⟩ := C122_methods
  obtain ⟨Q, hQ, h13, -⟩ := C124_order_13 (K := ZMod p381) (ZMod.card p381)
  let pf : EquProof (ZMod r381) BH1 BH2 := ⟨[⟨0, 0⟩, ⟨0, 0⟩], [⟨0, 0⟩, ⟨0, 0⟩], .PairingProduct, [[0, 0], [0, 0]]⟩
  let cp : CProof (ZMod r381) BH1 BH2 := ⟨⟨[⟨0, 0⟩], [[0, 0]]⟩, ⟨[⟨0, 0⟩], [[0, 0]]⟩, [pf]⟩
  obtain ⟨b, hb⟩ : ∃ b, OneEqu.verify blsE seqSched crsE cp (.ppe ppeE) = .ok b := ⟨_, rfl⟩
  have h := (C124_message_panics m1 m2 seqSched crsE crsE_generated crsE_nonzero (.ppe ppeE) (by simp [OneEqu.Fits, PPE.Fits, ppeE, Fits64, FitsMat]) cp
    (by simp [cp, pf, CProof.Fits, Commit.Fits, EquProof.Fits, Fits64, FitsMat]) hb rfl rfl hQ h13 m [] [] []).1
  rw [List.append_nil, List.append_nil] at h
  exact ⟨cp, b, _, hb, by rw [C124_bls_verify m1 m2, hb]; rfl, h⟩

end Ex

end GS
