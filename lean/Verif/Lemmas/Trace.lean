import Verif.Model.Trace

/-! # Erasing the trace -/

set_option linter.unusedSimpArgs false
set_option linter.unusedSectionVars false

namespace GS
variable {α β : Type}

@[simp] theorem Tr.bind_res (a : Tr α) (f : α → Tr β) : (a >>= f).res = a.res >>= fun x => (f x).res := by
  obtain ⟨l, r⟩ := a
  cases r <;> rfl

@[simp] theorem Tr.pure_res (a : α) : (pure a : Tr α).res = .ok a := rfl

@[simp] theorem Tr.lift_res (r : Res α) : (liftM r : Tr α).res = r := rfl

@[simp] theorem Tr.op_res (o : Op) (a : α) : (Tr.op o a).res = .ok a := rfl

@[simp] theorem Tr.ite_res (c : Prop) [Decidable c] (a b : Tr α) : (if c then a else b).res = if c then a.res else b.res := by
  split <;> rfl

@[simp] theorem Tr.collect_res (f : α → Tr β) (l : List α) : (Tr.collect f l).res = GS.collect (fun x => (f x).res) l := by
  induction l with
  | nil => rfl
  | cons a l ih => simp only [Tr.collect, GS.collect, Tr.bind_res, ih]; rfl

@[simp] theorem Tr.fold_res (f : β → α → Tr β) (l : List α) (b : β) :
    (Tr.fold f b l).res = foldRes (fun b a => (f b a).res) b l := by
  induction l generalizing b with
  | nil => rfl
  | cons a l ih => simp only [Tr.fold, foldRes, Tr.bind_res, ih]

@[simp] theorem Tr.parGrid_res (sch : Scheduler) (m n : Nat) (f : Nat → Nat → Tr β) :
    (Tr.parGrid sch m n f).res = GS.parGrid sch m n fun i j => (f i j).res := by
  simp only [Tr.parGrid, GS.parGrid, Tr.runTasks, GS.runTasks, Tr.bind_res, Tr.fold_res, Tr.lift_res]
  rfl

@[simp] theorem Tr.seqGrid_res (m n : Nat) (f : Nat → Nat → Tr β) :
    (Tr.seqGrid m n f).res = GS.seqGrid m n fun i j => (f i j).res := by
  simp [Tr.seqGrid, GS.seqGrid]

theorem foldRes_sum [Add β] [Zero β] (g : α → Res β) (l : List α) (b : β) :
    foldRes (fun a k => do let t ← g k; pure (a + t)) b l = (do let ts ← collect g l; pure (ts.foldl (fun a b => a + b) b)) := by
  induction l generalizing b with
  | nil => rfl
  | cons a l ih =>
    simp only [foldRes, collect]
    cases g a with
    | error p => rfl
    | ok t =>
      show foldRes _ (b + t) l = _
      rw [ih]
      cases collect g l <;> rfl

section
variable {G F : Type} [AddCommGroup G] [Field F] [Module F G]

@[simp] theorem Com.addTr_res (g : Grp) (a b : Com G) : (Com.addTr g a b).res = .ok (a + b) := rfl
@[simp] theorem Com.scalarMulTr_res (g : Grp) (a : Com G) (x : F) : (Com.scalarMulTr g a x).res = .ok (a.scalarMul x) := rfl

@[simp] theorem ComMat.addTr_res (g : Grp) (M N : Matrix (Com G)) : (ComMat.addTr g M N).res = ComMat.add M N := by
  simp only [Tr.bind_res, Tr.collect_res, Tr.lift_res, Tr.op_res, Tr.seqGrid_res, Tr.parGrid_res, Tr.fold_res, Com.addTr_res, Com.scalarMulTr_res, ComMat.addTr, ComMat.add]; rfl

@[simp] theorem ComMat.leftMulTr_res (g : Grp) (sch : Scheduler) (M : Matrix (Com G)) (L : Matrix F) (b : Bool) :
    (ComMat.leftMulTr g sch M L b).res = ComMat.leftMul sch M L b := by
  have h : ∀ i j, (do
      let row ← idx L i
      foldRes (fun a k => (do let t ← (do pure ((← idx2 M k j).scalarMul (← idx row k))); pure (a + t) : Res (Com G))) 0
        (List.range M.length)) = (do
      let row ← idx L i
      let terms ← collect (fun k => do pure ((← idx2 M k j).scalarMul (← idx row k))) (List.range M.length)
      pure (rustSum terms)) := by
    intro i j
    simp only [foldRes_sum]
    rfl
  simp only [ComMat.leftMulTr, ComMat.leftMul, ← h]
  cases isEmptyMat L <;> cases isEmptyMat M <;> cases b <;> first | rfl | (simp only [Tr.bind_res, Tr.collect_res, Tr.lift_res, Tr.op_res, Tr.seqGrid_res, Tr.parGrid_res, Tr.fold_res, Com.addTr_res, Com.scalarMulTr_res, if_true, if_false, Bool.false_eq_true, bind_assoc]; rfl)
end

section
variable {F : Type} [Field F]

@[simp] theorem FieldMat.addTr_res (M N : Matrix F) : (FieldMat.addTr M N).res = FieldMat.add M N := by
  simp only [Tr.bind_res, Tr.collect_res, Tr.lift_res, Tr.op_res, Tr.seqGrid_res, Tr.parGrid_res, Tr.fold_res, Com.addTr_res, Com.scalarMulTr_res, FieldMat.addTr, FieldMat.add]; rfl

@[simp] theorem FieldMat.negTr_res (M : Matrix F) : (FieldMat.negTr M).res = FieldMat.neg M := by
  simp only [Tr.bind_res, Tr.collect_res, Tr.lift_res, Tr.op_res, Tr.seqGrid_res, Tr.parGrid_res, Tr.fold_res, Com.addTr_res, Com.scalarMulTr_res, FieldMat.negTr, FieldMat.neg]; rfl

@[simp] theorem FieldMat.rightMulTr_res (sch : Scheduler) (M R : Matrix F) (b : Bool) :
    (FieldMat.rightMulTr sch M R b).res = FieldMat.rightMul sch M R b := by
  have h : ∀ i j, (do
      let row ← idx M i
      foldRes (fun a k => (do let t ← (do pure ((← idx row k) * (← idx2 R k j))); pure (a + t) : Res F)) 0
        (List.range R.length)) = (do
      let row ← idx M i
      let terms ← collect (fun k => do pure ((← idx row k) * (← idx2 R k j))) (List.range R.length)
      pure (rustSum terms)) := by
    intro i j
    simp only [foldRes_sum]
    rfl
  simp only [FieldMat.rightMulTr, FieldMat.rightMul, ← h]
  cases isEmptyMat M <;> cases isEmptyMat R <;> cases b <;> first | rfl | (simp only [Tr.bind_res, Tr.collect_res, Tr.lift_res, Tr.op_res, Tr.seqGrid_res, Tr.parGrid_res, Tr.fold_res, Com.addTr_res, Com.scalarMulTr_res, if_true, if_false, Bool.false_eq_true, bind_assoc]; rfl)
end

section
variable {F G1 G2 GT : Type} [Field F] [AddCommGroup G1] [Module F G1] [AddCommGroup G2] [Module F G2]

@[simp] theorem Com1.scalarLinearMapTr_res (x : F) (key : CRS G1 G2 GT) :
    (Com1.scalarLinearMapTr x key).res = Com1.scalarLinearMap x key := by
  simp only [Com1.scalarLinearMapTr, Com1.scalarLinearMap, Tr.bind_res, Tr.lift_res, Com.addTr_res, Com.scalarMulTr_res]; rfl

@[simp] theorem Com2.scalarLinearMapTr_res (x : F) (key : CRS G1 G2 GT) :
    (Com2.scalarLinearMapTr x key).res = Com2.scalarLinearMap x key := by
  simp only [Com2.scalarLinearMapTr, Com2.scalarLinearMap, Tr.bind_res, Tr.lift_res, Com.addTr_res, Com.scalarMulTr_res]; rfl

@[simp] theorem Com1.batchScalarLinearMapTr_res (xs : List F) (key : CRS G1 G2 GT) :
    (Com1.batchScalarLinearMapTr xs key).res = Com1.batchScalarLinearMap xs key := by
  simp only [Com1.batchScalarLinearMapTr, Com1.batchScalarLinearMap, Tr.collect_res, Com1.scalarLinearMapTr_res]

@[simp] theorem Com2.batchScalarLinearMapTr_res (xs : List F) (key : CRS G1 G2 GT) :
    (Com2.batchScalarLinearMapTr xs key).res = Com2.batchScalarLinearMap xs key := by
  simp only [Com2.batchScalarLinearMapTr, Com2.batchScalarLinearMap, Tr.collect_res, Com2.scalarLinearMapTr_res]

section
variable [AddCommGroup GT] [Module F GT] (e : G1 →ₗ[F] G2 →ₗ[F] GT)

@[simp] theorem ComT.addTr_res (a b : ComT GT) : (ComT.addTr a b).res = .ok (a + b) := rfl

@[simp] theorem ComT.eqTr_res [DecidableEq GT] (a b : ComT GT) : (ComT.eqTr a b).res = .ok (ComT.eq a b) := by
  unfold ComT.eqTr ComT.eq
  cases a.t0 == b.t0 <;> cases a.t1 == b.t1 <;> cases a.t2 == b.t2 <;> cases a.t3 == b.t3 <;> rfl

@[simp] theorem ComT.pairingTr_res (x : Com G1) (y : Com G2) : (ComT.pairingTr e x y).res = .ok (ComT.pairing e x y) := rfl

@[simp] theorem ComT.pairingSumTr_res (xs : List (Com G1)) (ys : List (Com G2)) :
    (ComT.pairingSumTr e xs ys).res = ComT.pairingSum e xs ys := by
  simp only [ComT.pairingSumTr, ComT.pairingSum, ComT.multiPairingTr, Tr.bind_res, Tr.lift_res, Tr.op_res]; rfl

@[simp] theorem ComT.linearMapMSMEG1Tr_res (z : G1) (key : CRS G1 G2 GT) :
    (ComT.linearMapMSMEG1Tr e z key).res = ComT.linearMapMSMEG1 e z key := by
  simp only [ComT.linearMapMSMEG1Tr, ComT.linearMapMSMEG1, Tr.bind_res, Com2.scalarLinearMapTr_res, ComT.pairingTr_res]; rfl

@[simp] theorem ComT.linearMapMSMEG2Tr_res (z : G2) (key : CRS G1 G2 GT) :
    (ComT.linearMapMSMEG2Tr e z key).res = ComT.linearMapMSMEG2 e z key := by
  simp only [ComT.linearMapMSMEG2Tr, ComT.linearMapMSMEG2, Tr.bind_res, Com1.scalarLinearMapTr_res, ComT.pairingTr_res]; rfl

@[simp] theorem ComT.linearMapQuadTr_res (z : F) (key : CRS G1 G2 GT) :
    (ComT.linearMapQuadTr e z key).res = ComT.linearMapQuad e z key := by
  simp only [ComT.linearMapQuadTr, ComT.linearMapQuad, Tr.bind_res, Com1.scalarLinearMapTr_res, Com2.scalarLinearMapTr_res,
    Com.scalarMulTr_res, ComT.pairingTr_res]; rfl

end

variable {ρ : Type} [Rng ρ F G1 G2]

@[simp] theorem randFTr_res (rng : ρ) : (randFTr (F := F) G1 G2 rng).res = .ok (Rng.randF G1 G2 rng) := rfl

@[simp] theorem drawRows2Tr_res (n : Nat) (rng : ρ) :
    (drawRows2Tr (randFTr (F := F) G1 G2) n rng).res = .ok (drawRows2 (Rng.randF G1 G2) n rng) := by
  induction n generalizing rng with
  | zero => rfl
  | succ n ih =>
    simp only [drawRows2Tr, drawRows2, Tr.bind_res, randFTr_res, ih, Tr.pure_res]
    rfl

@[simp] theorem drawRows1Tr_res (n : Nat) (rng : ρ) :
    (drawRows1Tr (randFTr (F := F) G1 G2) n rng).res = .ok (drawRows1 (Rng.randF G1 G2) n rng) := by
  induction n generalizing rng with
  | zero => rfl
  | succ n ih =>
    simp only [drawRows1Tr, drawRows1, Tr.bind_res, randFTr_res, ih, Tr.pure_res]
    rfl

@[simp] theorem commitG1Tr_res (x : G1) (key : CRS G1 G2 GT) (rng : ρ) :
    (commitG1Tr (F := F) x key rng).res = commitG1 x key rng := by
  simp only [commitG1Tr, commitG1, Tr.bind_res, Tr.lift_res, Tr.op_res, Tr.pure_res, Tr.collect_res, randFTr_res, drawRows2Tr_res, drawRows1Tr_res, Com.addTr_res, Com.scalarMulTr_res,
    ComMat.addTr_res, ComMat.leftMulTr_res, FieldMat.addTr_res, FieldMat.negTr_res, FieldMat.rightMulTr_res, Com1.scalarLinearMapTr_res,
    Com2.scalarLinearMapTr_res, Com1.batchScalarLinearMapTr_res, Com2.batchScalarLinearMapTr_res]
  rfl

@[simp] theorem batchCommitG1Tr_res (x : List G1) (key : CRS G1 G2 GT) (rng : ρ) :
    (batchCommitG1Tr (F := F) x key rng).res = batchCommitG1 x key rng := by
  simp only [batchCommitG1Tr, batchCommitG1, Tr.bind_res, Tr.lift_res, Tr.op_res, Tr.pure_res, Tr.collect_res, randFTr_res, drawRows2Tr_res, drawRows1Tr_res, Com.addTr_res, Com.scalarMulTr_res,
    ComMat.addTr_res, ComMat.leftMulTr_res, FieldMat.addTr_res, FieldMat.negTr_res, FieldMat.rightMulTr_res, Com1.scalarLinearMapTr_res,
    Com2.scalarLinearMapTr_res, Com1.batchScalarLinearMapTr_res, Com2.batchScalarLinearMapTr_res]
  rfl

@[simp] theorem commitScalarToB1Tr_res (x : F) (key : CRS G1 G2 GT) (rng : ρ) :
    (commitScalarToB1Tr x key rng).res = commitScalarToB1 x key rng := by
  simp only [commitScalarToB1Tr, commitScalarToB1, Tr.bind_res, Tr.lift_res, Tr.op_res, Tr.pure_res, Tr.collect_res, randFTr_res, drawRows2Tr_res, drawRows1Tr_res, Com.addTr_res, Com.scalarMulTr_res,
    ComMat.addTr_res, ComMat.leftMulTr_res, FieldMat.addTr_res, FieldMat.negTr_res, FieldMat.rightMulTr_res, Com1.scalarLinearMapTr_res,
    Com2.scalarLinearMapTr_res, Com1.batchScalarLinearMapTr_res, Com2.batchScalarLinearMapTr_res]
  rfl

@[simp] theorem batchCommitScalarToB1Tr_res (x : List F) (key : CRS G1 G2 GT) (rng : ρ) :
    (batchCommitScalarToB1Tr x key rng).res = batchCommitScalarToB1 x key rng := by
  simp only [batchCommitScalarToB1Tr, batchCommitScalarToB1, Tr.bind_res, Tr.lift_res, Tr.op_res, Tr.pure_res, Tr.collect_res, randFTr_res, drawRows2Tr_res, drawRows1Tr_res, Com.addTr_res, Com.scalarMulTr_res,
    ComMat.addTr_res, ComMat.leftMulTr_res, FieldMat.addTr_res, FieldMat.negTr_res, FieldMat.rightMulTr_res, Com1.scalarLinearMapTr_res,
    Com2.scalarLinearMapTr_res, Com1.batchScalarLinearMapTr_res, Com2.batchScalarLinearMapTr_res]
  rfl

@[simp] theorem commitG2Tr_res (x : G2) (key : CRS G1 G2 GT) (rng : ρ) :
    (commitG2Tr (F := F) x key rng).res = commitG2 x key rng := by
  simp only [commitG2Tr, commitG2, Tr.bind_res, Tr.lift_res, Tr.op_res, Tr.pure_res, Tr.collect_res, randFTr_res, drawRows2Tr_res, drawRows1Tr_res, Com.addTr_res, Com.scalarMulTr_res,
    ComMat.addTr_res, ComMat.leftMulTr_res, FieldMat.addTr_res, FieldMat.negTr_res, FieldMat.rightMulTr_res, Com1.scalarLinearMapTr_res,
    Com2.scalarLinearMapTr_res, Com1.batchScalarLinearMapTr_res, Com2.batchScalarLinearMapTr_res]
  rfl

@[simp] theorem batchCommitG2Tr_res (x : List G2) (key : CRS G1 G2 GT) (rng : ρ) :
    (batchCommitG2Tr (F := F) x key rng).res = batchCommitG2 x key rng := by
  simp only [batchCommitG2Tr, batchCommitG2, Tr.bind_res, Tr.lift_res, Tr.op_res, Tr.pure_res, Tr.collect_res, randFTr_res, drawRows2Tr_res, drawRows1Tr_res, Com.addTr_res, Com.scalarMulTr_res,
    ComMat.addTr_res, ComMat.leftMulTr_res, FieldMat.addTr_res, FieldMat.negTr_res, FieldMat.rightMulTr_res, Com1.scalarLinearMapTr_res,
    Com2.scalarLinearMapTr_res, Com1.batchScalarLinearMapTr_res, Com2.batchScalarLinearMapTr_res]
  rfl

@[simp] theorem commitScalarToB2Tr_res (x : F) (key : CRS G1 G2 GT) (rng : ρ) :
    (commitScalarToB2Tr x key rng).res = commitScalarToB2 x key rng := by
  simp only [commitScalarToB2Tr, commitScalarToB2, Tr.bind_res, Tr.lift_res, Tr.op_res, Tr.pure_res, Tr.collect_res, randFTr_res, drawRows2Tr_res, drawRows1Tr_res, Com.addTr_res, Com.scalarMulTr_res,
    ComMat.addTr_res, ComMat.leftMulTr_res, FieldMat.addTr_res, FieldMat.negTr_res, FieldMat.rightMulTr_res, Com1.scalarLinearMapTr_res,
    Com2.scalarLinearMapTr_res, Com1.batchScalarLinearMapTr_res, Com2.batchScalarLinearMapTr_res]
  rfl

@[simp] theorem batchCommitScalarToB2Tr_res (x : List F) (key : CRS G1 G2 GT) (rng : ρ) :
    (batchCommitScalarToB2Tr x key rng).res = batchCommitScalarToB2 x key rng := by
  simp only [batchCommitScalarToB2Tr, batchCommitScalarToB2, Tr.bind_res, Tr.lift_res, Tr.op_res, Tr.pure_res, Tr.collect_res, randFTr_res, drawRows2Tr_res, drawRows1Tr_res, Com.addTr_res, Com.scalarMulTr_res,
    ComMat.addTr_res, ComMat.leftMulTr_res, FieldMat.addTr_res, FieldMat.negTr_res, FieldMat.rightMulTr_res, Com1.scalarLinearMapTr_res,
    Com2.scalarLinearMapTr_res, Com1.batchScalarLinearMapTr_res, Com2.batchScalarLinearMapTr_res]
  rfl

theorem generateCrsTr_res [AddCommGroup GT] [Module F GT] (e : G1 →ₗ[F] G2 →ₗ[F] GT) (rng : ρ) :
    (generateCrsTr (F := F) e rng).res = .ok (generateCrs e rng) := rfl

@[simp] theorem PPE.proveTr_res (sch : Nat → Scheduler) (s : PPE F G1 G2 GT) (x : List G1) (y : List G2) (cx : Commit F G1) (cy : Commit F G2)
    (crs : CRS G1 G2 GT) (rng : ρ) : (s.proveTr sch x y cx cy crs rng).res = s.prove sch x y cx cy crs rng := by
  simp only [PPE.proveTr, PPE.prove, Tr.bind_res, Tr.lift_res, Tr.op_res, Tr.pure_res, Tr.collect_res, randFTr_res, drawRows2Tr_res, drawRows1Tr_res, Com.addTr_res, Com.scalarMulTr_res,
    ComMat.addTr_res, ComMat.leftMulTr_res, FieldMat.addTr_res, FieldMat.negTr_res, FieldMat.rightMulTr_res, Com1.scalarLinearMapTr_res,
    Com2.scalarLinearMapTr_res, Com1.batchScalarLinearMapTr_res, Com2.batchScalarLinearMapTr_res]
  rfl

@[simp] theorem PPE.commitAndProveTr_res (sch : Nat → Scheduler) (s : PPE F G1 G2 GT) (x : List G1) (y : List G2)
    (crs : CRS G1 G2 GT) (rng : ρ) : (s.commitAndProveTr sch x y crs rng).res = s.commitAndProve sch x y crs rng := by
  simp only [PPE.commitAndProveTr, PPE.commitAndProve, batchCommitG1Tr_res, batchCommitG2Tr_res, PPE.proveTr_res, Tr.bind_res, Tr.pure_res]
  rfl

@[simp] theorem MSMEG1.proveTr_res (sch : Nat → Scheduler) (s : MSMEG1 F G1) (x : List G1) (y : List F) (cx : Commit F G1) (cy : Commit F G2)
    (crs : CRS G1 G2 GT) (rng : ρ) : (s.proveTr sch x y cx cy crs rng).res = s.prove sch x y cx cy crs rng := by
  simp only [MSMEG1.proveTr, MSMEG1.prove, Tr.bind_res, Tr.lift_res, Tr.op_res, Tr.pure_res, Tr.collect_res, randFTr_res, drawRows2Tr_res, drawRows1Tr_res, Com.addTr_res, Com.scalarMulTr_res,
    ComMat.addTr_res, ComMat.leftMulTr_res, FieldMat.addTr_res, FieldMat.negTr_res, FieldMat.rightMulTr_res, Com1.scalarLinearMapTr_res,
    Com2.scalarLinearMapTr_res, Com1.batchScalarLinearMapTr_res, Com2.batchScalarLinearMapTr_res]
  rfl

@[simp] theorem MSMEG1.commitAndProveTr_res (sch : Nat → Scheduler) (s : MSMEG1 F G1) (x : List G1) (y : List F)
    (crs : CRS G1 G2 GT) (rng : ρ) : (s.commitAndProveTr sch x y crs rng).res = s.commitAndProve sch x y crs rng := by
  simp only [MSMEG1.commitAndProveTr, MSMEG1.commitAndProve, batchCommitG1Tr_res, batchCommitScalarToB2Tr_res, MSMEG1.proveTr_res, Tr.bind_res, Tr.pure_res]
  rfl

@[simp] theorem MSMEG2.proveTr_res (sch : Nat → Scheduler) (s : MSMEG2 F G2) (x : List F) (y : List G2) (cx : Commit F G1) (cy : Commit F G2)
    (crs : CRS G1 G2 GT) (rng : ρ) : (s.proveTr sch x y cx cy crs rng).res = s.prove sch x y cx cy crs rng := by
  simp only [MSMEG2.proveTr, MSMEG2.prove, Tr.bind_res, Tr.lift_res, Tr.op_res, Tr.pure_res, Tr.collect_res, randFTr_res, drawRows2Tr_res, drawRows1Tr_res, Com.addTr_res, Com.scalarMulTr_res,
    ComMat.addTr_res, ComMat.leftMulTr_res, FieldMat.addTr_res, FieldMat.negTr_res, FieldMat.rightMulTr_res, Com1.scalarLinearMapTr_res,
    Com2.scalarLinearMapTr_res, Com1.batchScalarLinearMapTr_res, Com2.batchScalarLinearMapTr_res]
  rfl

@[simp] theorem MSMEG2.commitAndProveTr_res (sch : Nat → Scheduler) (s : MSMEG2 F G2) (x : List F) (y : List G2)
    (crs : CRS G1 G2 GT) (rng : ρ) : (s.commitAndProveTr sch x y crs rng).res = s.commitAndProve sch x y crs rng := by
  simp only [MSMEG2.commitAndProveTr, MSMEG2.commitAndProve, batchCommitScalarToB1Tr_res, batchCommitG2Tr_res, MSMEG2.proveTr_res, Tr.bind_res, Tr.pure_res]
  rfl

@[simp] theorem QuadEqu.proveTr_res (sch : Nat → Scheduler) (s : QuadEqu F) (x : List F) (y : List F) (cx : Commit F G1) (cy : Commit F G2)
    (crs : CRS G1 G2 GT) (rng : ρ) : (s.proveTr sch x y cx cy crs rng).res = s.prove sch x y cx cy crs rng := by
  simp only [QuadEqu.proveTr, QuadEqu.prove, Tr.bind_res, Tr.lift_res, Tr.op_res, Tr.pure_res, Tr.collect_res, randFTr_res, drawRows2Tr_res, drawRows1Tr_res, Com.addTr_res, Com.scalarMulTr_res,
    ComMat.addTr_res, ComMat.leftMulTr_res, FieldMat.addTr_res, FieldMat.negTr_res, FieldMat.rightMulTr_res, Com1.scalarLinearMapTr_res,
    Com2.scalarLinearMapTr_res, Com1.batchScalarLinearMapTr_res, Com2.batchScalarLinearMapTr_res]
  rfl

@[simp] theorem QuadEqu.commitAndProveTr_res (sch : Nat → Scheduler) (s : QuadEqu F) (x : List F) (y : List F)
    (crs : CRS G1 G2 GT) (rng : ρ) : (s.commitAndProveTr sch x y crs rng).res = s.commitAndProve sch x y crs rng := by
  simp only [QuadEqu.commitAndProveTr, QuadEqu.commitAndProve, batchCommitScalarToB1Tr_res, batchCommitScalarToB2Tr_res, QuadEqu.proveTr_res, Tr.bind_res, Tr.pure_res]
  rfl

variable [AddCommGroup GT] [Module F GT] [DecidableEq GT] (e : G1 →ₗ[F] G2 →ₗ[F] GT)

@[simp] theorem PPE.verifyTr_res (sch : Scheduler) (s : PPE F G1 G2 GT) (pf : CProof F G1 G2) (crs : CRS G1 G2 GT) :
    (s.verifyTr e sch pf crs).res = s.verify e sch pf crs := by
  simp only [PPE.verifyTr, PPE.verify, Tr.bind_res, Tr.lift_res, Tr.op_res, Tr.pure_res, Tr.collect_res, randFTr_res, drawRows2Tr_res, drawRows1Tr_res, Com.addTr_res, Com.scalarMulTr_res,
    ComMat.addTr_res, ComMat.leftMulTr_res, FieldMat.addTr_res, FieldMat.negTr_res, FieldMat.rightMulTr_res, Com1.scalarLinearMapTr_res,
    Com2.scalarLinearMapTr_res, Com1.batchScalarLinearMapTr_res, Com2.batchScalarLinearMapTr_res, ComT.pairingSumTr_res, ComT.pairingTr_res, ComT.addTr_res, ComT.eqTr_res,
    ComT.linearMapMSMEG1Tr_res, ComT.linearMapMSMEG2Tr_res, ComT.linearMapQuadTr_res]
  rfl

@[simp] theorem MSMEG1.verifyTr_res (sch : Scheduler) (s : MSMEG1 F G1) (pf : CProof F G1 G2) (crs : CRS G1 G2 GT) :
    (s.verifyTr e sch pf crs).res = s.verify e sch pf crs := by
  simp only [MSMEG1.verifyTr, MSMEG1.verify, Tr.bind_res, Tr.lift_res, Tr.op_res, Tr.pure_res, Tr.collect_res, randFTr_res, drawRows2Tr_res, drawRows1Tr_res, Com.addTr_res, Com.scalarMulTr_res,
    ComMat.addTr_res, ComMat.leftMulTr_res, FieldMat.addTr_res, FieldMat.negTr_res, FieldMat.rightMulTr_res, Com1.scalarLinearMapTr_res,
    Com2.scalarLinearMapTr_res, Com1.batchScalarLinearMapTr_res, Com2.batchScalarLinearMapTr_res, ComT.pairingSumTr_res, ComT.pairingTr_res, ComT.addTr_res, ComT.eqTr_res,
    ComT.linearMapMSMEG1Tr_res, ComT.linearMapMSMEG2Tr_res, ComT.linearMapQuadTr_res]
  rfl

@[simp] theorem MSMEG2.verifyTr_res (sch : Scheduler) (s : MSMEG2 F G2) (pf : CProof F G1 G2) (crs : CRS G1 G2 GT) :
    (s.verifyTr e sch pf crs).res = s.verify e sch pf crs := by
  simp only [MSMEG2.verifyTr, MSMEG2.verify, Tr.bind_res, Tr.lift_res, Tr.op_res, Tr.pure_res, Tr.collect_res, randFTr_res, drawRows2Tr_res, drawRows1Tr_res, Com.addTr_res, Com.scalarMulTr_res,
    ComMat.addTr_res, ComMat.leftMulTr_res, FieldMat.addTr_res, FieldMat.negTr_res, FieldMat.rightMulTr_res, Com1.scalarLinearMapTr_res,
    Com2.scalarLinearMapTr_res, Com1.batchScalarLinearMapTr_res, Com2.batchScalarLinearMapTr_res, ComT.pairingSumTr_res, ComT.pairingTr_res, ComT.addTr_res, ComT.eqTr_res,
    ComT.linearMapMSMEG1Tr_res, ComT.linearMapMSMEG2Tr_res, ComT.linearMapQuadTr_res]
  rfl

@[simp] theorem QuadEqu.verifyTr_res (sch : Scheduler) (s : QuadEqu F) (pf : CProof F G1 G2) (crs : CRS G1 G2 GT) :
    (s.verifyTr e sch pf crs).res = s.verify e sch pf crs := by
  simp only [QuadEqu.verifyTr, QuadEqu.verify, Tr.bind_res, Tr.lift_res, Tr.op_res, Tr.pure_res, Tr.collect_res, randFTr_res, drawRows2Tr_res, drawRows1Tr_res, Com.addTr_res, Com.scalarMulTr_res,
    ComMat.addTr_res, ComMat.leftMulTr_res, FieldMat.addTr_res, FieldMat.negTr_res, FieldMat.rightMulTr_res, Com1.scalarLinearMapTr_res,
    Com2.scalarLinearMapTr_res, Com1.batchScalarLinearMapTr_res, Com2.batchScalarLinearMapTr_res, ComT.pairingSumTr_res, ComT.pairingTr_res, ComT.addTr_res, ComT.eqTr_res,
    ComT.linearMapMSMEG1Tr_res, ComT.linearMapMSMEG2Tr_res, ComT.linearMapQuadTr_res]
  rfl

end

end GS
