import Verif.Lemmas.RawProve
import Verif.Spec.Coord

/-! # The verifier and the prover on values that represent elements of the groups -/

set_option linter.unusedSectionVars false

namespace GS.Raw
variable {F H1 H2 GT R1 R2 RT : Type} [Field F] [Add H1] [Neg H1] [Zero H1] [SMul F H1] [Add H2] [Neg H2] [Zero H2] [SMul F H2]
  [Add R1] [Neg R1] [Zero R1] [SMul F R1] [Add R2] [Neg R2] [Zero R2] [SMul F R2] [Add GT] [Zero GT] [Add RT] [Zero RT]
  {e : H1 → H2 → GT} {e' : R1 → R2 → RT} {j1 : H1 → R1} {j2 : H2 → R2} {jT : GT → RT}

/-- The four elements are represented. -/
def onT (jT : GT → RT) (c : ComT GT) : ComT RT := ⟨jT c.t0, jT c.t1, jT c.t2, jT c.t3⟩

theorem multiPairing_rep (he : PairsRep e' e j1 j2 jT) (hT : AddsRep jT) (xs : List H1) (ys : List H2) :
    multiPairing e' (xs.map j1) (ys.map j2) = jT (multiPairing e xs ys) := by
  have key : ∀ (l : List GT) (a : GT), (l.map jT).foldl (fun a b => a + b) (jT a) = jT (l.foldl (fun a b => a + b) a) := by
    intro l
    induction l with
    | nil => intro a; rfl
    | cons b l ih => intro a; rw [List.map_cons, List.foldl_cons, List.foldl_cons, ← hT.add, ih]
  have hz : List.zipWith e' (xs.map j1) (ys.map j2) = (List.zipWith e xs ys).map jT := by
    rw [List.zipWith_map_left, List.zipWith_map_right, List.map_zipWith]
    congr 1
    funext x y
    exact he x y
  unfold multiPairing rustSum
  rw [hz, ← key, hT.zero]

theorem pairing_rep (he : PairsRep e' e j1 j2 jT) (x : Com H1) (y : Com H2) :
    pairing e' (x.on j1) (y.on j2) = onT jT (pairing e x y) := by
  unfold pairing onT Com.on
  simp only [he _ _]

theorem pairingSum_rep (he : PairsRep e' e j1 j2 jT) (hT : AddsRep jT) (xs : List (Com H1)) (ys : List (Com H2)) :
    pairingSum e' (xs.map (Com.on j1)) (ys.map (Com.on j2)) = (pairingSum e xs ys).map (onT jT) := by
  have key : ∀ (p : Com H1 → H1) (p' : Com R1 → R1) (q : Com H2 → H2) (q' : Com R2 → R2),
      (∀ c, p' (c.on j1) = j1 (p c)) → (∀ c, q' (c.on j2) = j2 (q c)) →
      multiPairing e' ((xs.map (Com.on j1)).map p') ((ys.map (Com.on j2)).map q') = jT (multiPairing e (xs.map p) (ys.map q)) := by
    intro p p' q q' hp hq
    rw [← multiPairing_rep he hT]
    simp only [List.map_map, Function.comp_def, hp, hq]
  unfold pairingSum
  rw [List.length_map, List.length_map, bind_map']
  congr 1
  funext _
  rw [key (fun c => c.c0) (fun c => c.c0) (fun c => c.c0) (fun c => c.c0) (fun _ => rfl) (fun _ => rfl),
    key (fun c => c.c0) (fun c => c.c0) (fun c => c.c1) (fun c => c.c1) (fun _ => rfl) (fun _ => rfl),
    key (fun c => c.c1) (fun c => c.c1) (fun c => c.c0) (fun c => c.c0) (fun _ => rfl) (fun _ => rfl),
    key (fun c => c.c1) (fun c => c.c1) (fun c => c.c1) (fun c => c.c1) (fun _ => rfl) (fun _ => rfl)]
  rfl

theorem onT_add (hT : AddsRep jT) (a b : ComT GT) : onT jT a + onT jT b = onT jT (a + b) := by
  show (⟨jT a.t0 + jT b.t0, jT a.t1 + jT b.t1, jT a.t2 + jT b.t2, jT a.t3 + jT b.t3⟩ : ComT RT) = _
  rw [← hT.add, ← hT.add, ← hT.add, ← hT.add]
  rfl

theorem onT_eq [DecidableEq GT] [DecidableEq RT] (hT : AddsRep jT) (a b : ComT GT) : ComT.eq (onT jT a) (onT jT b) = ComT.eq a b := by
  have key : ∀ x y : GT, (jT x == jT y) = (x == y) := fun x y => by
    rw [Bool.eq_iff_iff, beq_iff_eq, beq_iff_eq]
    exact hT.injective.eq_iff
  unfold ComT.eq onT
  simp only [key]

theorem targetPPE_rep (hT : AddsRep jT) (t : GT) : ComT.linearMapPPE (jT t) = onT jT (ComT.linearMapPPE t) := by
  unfold ComT.linearMapPPE onT
  simp only [hT.zero]

theorem scalar1_rep (h1 : Carries F j1) (x : F) (key : CRS H1 H2 GT) :
    scalarLinearMap1 x (key.rep j1 j2 jT) = (scalarLinearMap1 x key).map (Com.on j1) := scalar1_nat (f2 := j2) h1 x key

theorem scalar2_rep (h2 : Carries F j2) (x : F) (key : CRS H1 H2 GT) :
    scalarLinearMap2 x (key.rep j1 j2 jT) = (scalarLinearMap2 x key).map (Com.on j2) := scalar2_nat (f1 := j1) h2 x key

theorem batchScalar1_rep (h1 : Carries F j1) (l : List F) (key : CRS H1 H2 GT) :
    collect (fun x => scalarLinearMap1 x (key.rep j1 j2 jT)) l = (collect (fun x => scalarLinearMap1 x key) l).map (List.map (Com.on j1)) :=
  batchScalar1_nat (f2 := j2) h1 l key

theorem batchScalar2_rep (h2 : Carries F j2) (l : List F) (key : CRS H1 H2 GT) :
    collect (fun x => scalarLinearMap2 x (key.rep j1 j2 jT)) l = (collect (fun x => scalarLinearMap2 x key) l).map (List.map (Com.on j2)) :=
  batchScalar2_nat (f1 := j1) h2 l key

theorem target1_rep (he : PairsRep e' e j1 j2 jT) (h1 : Carries F j1) (h2 : Carries F j2) (z : H1) (key : CRS H1 H2 GT) :
    linearMapMSMEG1 F e' (j1 z) (key.rep j1 j2 jT) = (linearMapMSMEG1 F e z key).map (onT jT) := by
  unfold linearMapMSMEG1
  rw [scalar2_rep h2, map_bind, bind_map']
  congr 1
  funext c
  rw [← on_emb' h1, pairing_rep he]
  rfl

theorem target2_rep (he : PairsRep e' e j1 j2 jT) (h1 : Carries F j1) (h2 : Carries F j2) (z : H2) (key : CRS H1 H2 GT) :
    linearMapMSMEG2 F e' (j2 z) (key.rep j1 j2 jT) = (linearMapMSMEG2 F e z key).map (onT jT) := by
  unfold linearMapMSMEG2
  rw [scalar1_rep h1, map_bind, bind_map']
  congr 1
  funext c
  rw [← on_emb' h2, pairing_rep he]
  rfl

theorem targetQuad_rep (he : PairsRep e' e j1 j2 jT) (h1 : Carries F j1) (h2 : Carries F j2) (z : F) (key : CRS H1 H2 GT) :
    linearMapQuad e' z (key.rep j1 j2 jT) = (linearMapQuad e z key).map (onT jT) := by
  unfold linearMapQuad
  rw [scalar1_rep h1, map_bind, bind_map']
  congr 1
  funext c
  rw [scalar2_rep h2, map_bind, bind_map']
  congr 1
  funext d
  rw [← on_scalarMul' h2, pairing_rep he]
  rfl

/-- The four verifiers. -/
theorem verify_rep [DecidableEq GT] [DecidableEq RT] (he : PairsRep e' e j1 j2 jT) (hT : AddsRep jT) (h1 : Carries F j1) (h2 : Carries F j2)
    (sch : Scheduler) (cp : CProof F H1 H2) (crs : CRS H1 H2 GT) :
    (∀ equ : PPE F H1 H2 GT, (equ.rep j1 j2 jT).verifyRaw e' sch (cp.on j1 j2) (crs.rep j1 j2 jT) = equ.verifyRaw e sch cp crs) ∧
    (∀ equ : MSMEG1 F H1, (equ.on j1).verifyRaw e' sch (cp.on j1 j2) (crs.rep j1 j2 jT) = equ.verifyRaw e sch cp crs) ∧
    (∀ equ : MSMEG2 F H2, (equ.on j2).verifyRaw e' sch (cp.on j1 j2) (crs.rep j1 j2 jT) = equ.verifyRaw e sch cp crs) ∧
    (∀ equ : QuadEqu F, equ.verifyRaw e' sch (cp.on j1 j2) (crs.rep j1 j2 jT) = equ.verifyRaw e sch cp crs) := by
  have hu : (crs.rep j1 j2 jT).u = crs.u.map (Com.on j1) := rfl
  have hv : (crs.rep j1 j2 jT).v = crs.v.map (Com.on j2) := rfl
  refine ⟨fun equ => ?_, fun equ => ?_, fun equ => ?_, fun equ => ?_⟩
  · unfold PPE.verifyRaw
    simp only [CProof.on, List.length_map, idx_map, map_bind]
    congr 1; funext _
    congr 1; funext pf
    simp only [PPE.rep, EquProof.on, Commit.on, hu, hv, pairingSum_rep he hT, batch1_nat h1, batch2_nat h2, vecToColVec_map, leftMul_nat h2, map_bind,
      colVecToVec_map, onT_add hT, onT_eq hT, targetPPE_rep hT]
    rfl
  · unfold MSMEG1.verifyRaw
    simp only [CProof.on, List.length_map, idx_map, map_bind]
    congr 1; funext _
    congr 1; funext pf
    simp only [MSMEG1.on, EquProof.on, Commit.on, hu, hv, pairingSum_rep he hT, pairing_rep he, batch1_nat h1, batchScalar2_rep (j1 := j1) (jT := jT) h2, vecToColVec_map, leftMul_nat h2,
      map_bind, colVecToVec_map, onT_add hT, onT_eq hT, target1_rep he h1 h2, idx_map]
    rfl
  · unfold MSMEG2.verifyRaw
    simp only [CProof.on, List.length_map, idx_map, map_bind]
    congr 1; funext _
    congr 1; funext pf
    simp only [MSMEG2.on, EquProof.on, Commit.on, hu, hv, pairingSum_rep he hT, pairing_rep he, batch2_nat h2, batchScalar1_rep (j2 := j2) (jT := jT) h1, vecToColVec_map, leftMul_nat h2,
      map_bind, colVecToVec_map, onT_add hT, onT_eq hT, target2_rep he h1 h2, idx_map]
    rfl
  · unfold QuadEqu.verifyRaw
    simp only [CProof.on, List.length_map, idx_map, map_bind]
    congr 1; funext _
    congr 1; funext pf
    simp only [EquProof.on, Commit.on, hu, hv, pairingSum_rep he hT, pairing_rep he, batchScalar1_rep (j2 := j2) (jT := jT) h1, batchScalar2_rep (j1 := j1) (jT := jT) h2, vecToColVec_map, leftMul_nat h2,
      map_bind, colVecToVec_map, onT_add hT, onT_eq hT, targetQuad_rep he h1 h2, idx_map]

section
variable {ρ : Type} [Rng ρ F H1 H2] [Rng ρ F R1 R2]

/-- The commitments. -/
theorem commit_rep (h1 : Carries F j1) (h2 : Carries F j2) (hr : SameScalars ρ F H1 H2 R1 R2) (crs : CRS H1 H2 GT) (rng : ρ) :
    (∀ x : H1, commitG1 (F := F) (j1 x) (crs.rep j1 j2 jT) rng = (commitG1 (F := F) x crs rng).map (Prod.map (Commit.on j1) id)) ∧
    (∀ x : List H1, batchCommitG1 (F := F) (x.map j1) (crs.rep j1 j2 jT) rng = (batchCommitG1 (F := F) x crs rng).map (Prod.map (Commit.on j1) id)) ∧
    (∀ x : F, commitScalarToB1 x (crs.rep j1 j2 jT) rng = (commitScalarToB1 x crs rng).map (Prod.map (Commit.on j1) id)) ∧
    (∀ x : List F, batchCommitScalarToB1 x (crs.rep j1 j2 jT) rng = (batchCommitScalarToB1 x crs rng).map (Prod.map (Commit.on j1) id)) ∧
    (∀ y : H2, commitG2 (F := F) (j2 y) (crs.rep j1 j2 jT) rng = (commitG2 (F := F) y crs rng).map (Prod.map (Commit.on j2) id)) ∧
    (∀ y : List H2, batchCommitG2 (F := F) (y.map j2) (crs.rep j1 j2 jT) rng = (batchCommitG2 (F := F) y crs rng).map (Prod.map (Commit.on j2) id)) ∧
    (∀ y : F, commitScalarToB2 y (crs.rep j1 j2 jT) rng = (commitScalarToB2 y crs rng).map (Prod.map (Commit.on j2) id)) ∧
    (∀ y : List F, batchCommitScalarToB2 y (crs.rep j1 j2 jT) rng = (batchCommitScalarToB2 y crs rng).map (Prod.map (Commit.on j2) id)) :=
  ⟨fun _ => commitG1_nat (f2 := j2) h1 hr .., fun _ => batchCommitG1_nat (f2 := j2) h1 hr .., fun _ => commitScalarToB1_nat (f2 := j2) h1 hr ..,
    fun _ => batchCommitScalarToB1_nat (f2 := j2) h1 hr .., fun _ => commitG2_nat (f1 := j1) h2 hr .., fun _ => batchCommitG2_nat (f1 := j1) h2 hr ..,
    fun _ => commitScalarToB2_nat (f1 := j1) h2 hr .., fun _ => batchCommitScalarToB2_nat (f1 := j1) h2 hr ..⟩

/-- The provers, of equations for which committing has been done. -/
theorem prove_rep (h1 : Carries F j1) (h2 : Carries F j2) (hr : SameScalars ρ F H1 H2 R1 R2) (sch : Nat → Scheduler)
    (xc : Commit F H1) (yc : Commit F H2) (crs : CRS H1 H2 GT) (rng : ρ) :
    (∀ (equ : PPE F H1 H2 GT) x y, (equ.rep j1 j2 jT).proveRaw sch (x.map j1) (y.map j2) (xc.on j1) (yc.on j2) (crs.rep j1 j2 jT) rng =
      (equ.proveRaw sch x y xc yc crs rng).map (Prod.map (EquProof.on j1 j2) id)) ∧
    (∀ (equ : MSMEG1 F H1) x y, (equ.on j1).proveRaw sch (x.map j1) y (xc.on j1) (yc.on j2) (crs.rep j1 j2 jT) rng =
      (equ.proveRaw sch x y xc yc crs rng).map (Prod.map (EquProof.on j1 j2) id)) ∧
    (∀ (equ : MSMEG2 F H2) x y, (equ.on j2).proveRaw sch x (y.map j2) (xc.on j1) (yc.on j2) (crs.rep j1 j2 jT) rng =
      (equ.proveRaw sch x y xc yc crs rng).map (Prod.map (EquProof.on j1 j2) id)) ∧
    (∀ (equ : QuadEqu F) x y, equ.proveRaw sch x y (xc.on j1) (yc.on j2) (crs.rep j1 j2 jT) rng =
      (equ.proveRaw sch x y xc yc crs rng).map (Prod.map (EquProof.on j1 j2) id)) := by
  obtain ⟨k1, k2, k3, k4⟩ := prove_nat h1 h2 hr sch xc yc crs rng
  exact ⟨fun equ x y => k1 equ x y, fun equ x y => k2 equ x y, fun equ x y => k3 equ x y, fun equ x y => k4 equ x y⟩

/-- The provers that commit too. -/
theorem commitAndProve_rep (h1 : Carries F j1) (h2 : Carries F j2) (hr : SameScalars ρ F H1 H2 R1 R2) (sch : Nat → Scheduler) (crs : CRS H1 H2 GT) (rng : ρ) :
    (∀ (equ : PPE F H1 H2 GT) x y, (equ.rep j1 j2 jT).commitAndProveRaw sch (x.map j1) (y.map j2) (crs.rep j1 j2 jT) rng =
      (equ.commitAndProveRaw sch x y crs rng).map (Prod.map (CProof.on j1 j2) id)) ∧
    (∀ (equ : MSMEG1 F H1) x y, (equ.on j1).commitAndProveRaw sch (x.map j1) y (crs.rep j1 j2 jT) rng =
      (equ.commitAndProveRaw sch x y crs rng).map (Prod.map (CProof.on j1 j2) id)) ∧
    (∀ (equ : MSMEG2 F H2) x y, (equ.on j2).commitAndProveRaw sch x (y.map j2) (crs.rep j1 j2 jT) rng =
      (equ.commitAndProveRaw sch x y crs rng).map (Prod.map (CProof.on j1 j2) id)) ∧
    (∀ (equ : QuadEqu F) x y, equ.commitAndProveRaw sch x y (crs.rep j1 j2 jT) rng =
      (equ.commitAndProveRaw sch x y crs rng).map (Prod.map (CProof.on j1 j2) id)) := by
  obtain ⟨k1, k2, k3, k4⟩ := commitAndProve_nat h1 h2 hr sch crs rng
  exact ⟨fun equ x y => k1 equ x y, fun equ x y => k2 equ x y, fun equ x y => k3 equ x y, fun equ x y => k4 equ x y⟩

end

end GS.Raw
