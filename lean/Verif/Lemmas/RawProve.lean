import Verif.Lemmas.Raw
import Verif.Lemmas.Prove
import Verif.Lemmas.Commit
import Verif.Model.RawProve
import Mathlib.GroupTheory.OrderOfElement

/-! # The prover on unchecked points, and its image under homomorphisms -/

set_option linter.unusedSectionVars false

namespace GS.Raw
variable {F G H G1 G2 GT H1 H2 : Type} [Field F]

theorem seqGrid_map {β γ : Type} (h : β → γ) (m n : Nat) (g : Nat → Nat → Res β) :
    seqGrid m n (fun i j => (g i j).map h) = (seqGrid m n g).map (List.map (List.map h)) := by
  unfold seqGrid
  rw [← collect_map']
  congr 1
  funext i
  rw [← collect_map']

theorem proj_zero' [AddCommGroup G] [SMul F G] [AddCommGroup H] [SMul F H] {f : G → H} (hf : Projects F f) : f 0 = 0 := by
  have h := hf.add 0 0
  rw [add_zero] at h
  exact left_eq_add.mp h

theorem carries [AddCommGroup G] [SMul F G] [AddCommGroup H] [SMul F H] {f : G → H} (hf : Projects F f) : Carries F f := ⟨proj_zero' hf, hf.add, hf.smul⟩

section Group
variable [Add G] [Neg G] [Zero G] [SMul F G] [Add H] [Neg H] [Zero H] [SMul F H] {f : G → H}

theorem on_add' (hf : Carries F f) (a b : Com G) : (a + b).on f = a.on f + b.on f := by
  show (⟨f (a.c0 + b.c0), f (a.c1 + b.c1)⟩ : Com H) = ⟨f a.c0 + f b.c0, f a.c1 + f b.c1⟩
  rw [hf.add, hf.add]

theorem on_emb' (hf : Carries F f) (x : G) : (⟨0, x⟩ : Com G).on f = ⟨0, f x⟩ := by
  show (⟨f 0, f x⟩ : Com H) = _
  rw [hf.zero]

theorem on_scalarMul' (hf : Carries F f) (a : Com G) (r : F) : (scalarMul a r).on f = scalarMul (a.on f) r := by
  show (⟨f (r • a.c0), f (r • a.c1)⟩ : Com H) = ⟨r • f a.c0, r • f a.c1⟩
  rw [hf.smul, hf.smul]

theorem on_sum' (hf : Carries F f) (l : List (Com G)) : (rustSum l).on f = rustSum (l.map (Com.on f)) := by
  have key : ∀ (l : List (Com G)) (a : Com G), (l.foldl (fun a b => a + b) a).on f =
      (l.map (Com.on f)).foldl (fun a b => a + b) (a.on f) := by
    intro l
    induction l with
    | nil => intro a; rfl
    | cons b l ih => intro a; rw [List.foldl_cons, ih, List.map_cons, List.foldl_cons, on_add' hf]
  have h0 : (0 : Com G).on f = 0 := by
    show (⟨f 0, f 0⟩ : Com H) = ⟨0, 0⟩
    rw [hf.zero]
  unfold rustSum
  rw [key, h0]

theorem terms_on (hf : Carries F f) (M : Matrix (Com G)) (row : List F) (j : Nat) :
    collect (fun k => do pure (scalarMul (← idx2 (M.map (List.map (Com.on f))) k j) (← idx row k))) (List.range M.length)
      = (collect (fun k => do pure (scalarMul (← idx2 M k j) (← idx row k))) (List.range M.length)).map (List.map (Com.on f)) := by
  rw [← collect_map']
  congr 1
  funext k
  rw [idx2_map]
  cases idx2 M k j with
  | error p => rfl
  | ok c =>
    cases idx row k with
    | error p => rfl
    | ok r => exact congrArg Except.ok (on_scalarMul' hf c r).symm

theorem leftMul_nat (hf : Carries F f) (sch : Scheduler) (M : Matrix (Com G)) (γ : Matrix F) :
    leftMul sch (M.map (List.map (Com.on f))) γ = (leftMul sch M γ).map (List.map (List.map (Com.on f))) := by
  unfold leftMul
  rw [isEmptyMat_map]
  cases h1 : isEmptyMat γ
  · cases h2 : isEmptyMat M
    · simp only [Bool.false_eq_true, if_false]
      simp only [bind_map', List.length_map, firstRowLen_map, ← parGrid_map, terms_on hf, map_bind]
      congr 1; funext _
      congr 1; funext _
      congr 1; funext _
      congr 1; funext i j
      congr 1; funext row
      congr 1; funext terms
      exact congrArg Except.ok (on_sum' hf terms).symm
    · rfl
  · rfl

theorem leftMulSeq_nat (hf : Carries F f) (M : Matrix (Com G)) (γ : Matrix F) :
    leftMulSeq (M.map (List.map (Com.on f))) γ = (leftMulSeq M γ).map (List.map (List.map (Com.on f))) := by
  unfold leftMulSeq
  rw [isEmptyMat_map]
  cases h1 : isEmptyMat γ
  · cases h2 : isEmptyMat M
    · simp only [Bool.false_eq_true, if_false]
      simp only [bind_map', List.length_map, firstRowLen_map, ← seqGrid_map, terms_on hf, map_bind]
      congr 1; funext _
      congr 1; funext _
      congr 1; funext _
      congr 1; funext i j
      congr 1; funext row
      congr 1; funext terms
      exact congrArg Except.ok (on_sum' hf terms).symm
    · rfl
  · rfl

theorem add_nat (hf : Carries F f) (A B : Matrix (Com G)) :
    ComMat.add (A.map (List.map (Com.on f))) (B.map (List.map (Com.on f))) =
      (ComMat.add A B).map (List.map (List.map (Com.on f))) := by
  unfold ComMat.add
  simp only [bind_map', List.length_map, firstRowLen_map, ← collect_map', idx2_map, map_bind]
  congr 1; funext _
  congr 1; funext _
  congr 1; funext _
  congr 1; funext _
  congr 1; funext _
  congr 1; funext i
  congr 1; funext j
  congr 1; funext a
  congr 1; funext b
  exact congrArg Except.ok (on_add' hf a b).symm

end Group

section Crs
variable [Add G1] [Neg G1] [Zero G1] [SMul F G1] [Add G2] [Neg G2] [Zero G2] [SMul F G2]
  [Add H1] [Neg H1] [Zero H1] [SMul F H1] [Add H2] [Neg H2] [Zero H2] [SMul F H2] {f1 : G1 → H1} {f2 : G2 → H2}

theorem batch1_nat (hf : Carries F f1) (l : List G1) :
    Com1.batchLinearMap (l.map f1) = (Com1.batchLinearMap l).map (Com.on f1) := by
  unfold Com1.batchLinearMap Com1.linearMap
  simp only [List.map_map]
  exact List.map_congr_left fun x _ => (on_emb' hf x).symm

theorem batch2_nat (hf : Carries F f2) (l : List G2) :
    Com2.batchLinearMap (l.map f2) = (Com2.batchLinearMap l).map (Com.on f2) := by
  unfold Com2.batchLinearMap Com2.linearMap
  simp only [List.map_map]
  exact List.map_congr_left fun x _ => (on_emb' hf x).symm

theorem scalar1_nat (hf : Carries F f1) (x : F) (key : CRS G1 G2 GT) :
    scalarLinearMap1 x (key.on f1 f2) = (scalarLinearMap1 x key).map (Com.on f1) := by
  unfold scalarLinearMap1 CRS.on
  rw [idx_map, map_bind, bind_map']
  congr 1
  funext u
  refine congrArg Except.ok ?_
  rw [on_scalarMul' hf, on_add' hf, on_emb' hf]

theorem scalar2_nat (hf : Carries F f2) (y : F) (key : CRS G1 G2 GT) :
    scalarLinearMap2 y (key.on f1 f2) = (scalarLinearMap2 y key).map (Com.on f2) := by
  unfold scalarLinearMap2 CRS.on
  rw [idx_map, map_bind, bind_map']
  congr 1
  funext u
  refine congrArg Except.ok ?_
  rw [on_scalarMul' hf, on_add' hf, on_emb' hf]

theorem batchScalar1_nat (hf : Carries F f1) (l : List F) (key : CRS G1 G2 GT) :
    collect (fun x => scalarLinearMap1 x (key.on f1 f2)) l = (collect (fun x => scalarLinearMap1 x key) l).map (List.map (Com.on f1)) := by
  rw [← collect_map']
  congr 1
  funext x
  exact scalar1_nat hf x key

theorem batchScalar2_nat (hf : Carries F f2) (l : List F) (key : CRS G1 G2 GT) :
    collect (fun x => scalarLinearMap2 x (key.on f1 f2)) l = (collect (fun x => scalarLinearMap2 x key) l).map (List.map (Com.on f2)) := by
  rw [← collect_map']
  congr 1
  funext x
  exact scalar2_nat hf x key

end Crs

/-! ### The common text of the four provers -/

section Prove
variable [Add G1] [Neg G1] [Zero G1] [SMul F G1] [Add G2] [Neg G2] [Zero G2] [SMul F G2]
  [Add H1] [Neg H1] [Zero H1] [SMul F H1] [Add H2] [Neg H2] [Zero H2] [SMul F H2] {f1 : G1 → H1} {f2 : G2 → H2} {ρ : Type}

/-- `proveCore` without laws. -/
def proveCoreRaw (sch : Nat → Scheduler) (ty : EquType) (p q xlen ylen : Nat) (R S gamma T : Matrix F)
    (lb ly : Res (List (Com G2))) (V : Res (Matrix (Com G2)))
    (la lx : Res (List (Com G1))) (U : Res (Matrix (Com G1))) (rng : ρ) : Res (EquProof F G1 G2 × ρ) := do
  assertEq xlen R.length
  assertEq gamma.length R.length
  assertEq (← idx R 0).length p
  assertEq ylen S.length
  assertEq (← idx gamma 0).length S.length
  assertEq (← idx S 0).length q
  let x_rand_trans ← FieldMat.transpose R
  let y_rand_trans ← FieldMat.transpose S
  let x_rand_lin_b ← leftMul (sch 0) (vecToColVec (← lb)) x_rand_trans
  let x_rand_stmt ← FieldMat.rightMul (sch 1) x_rand_trans gamma true
  let x_rand_stmt_lin_y ← leftMul (sch 2) (vecToColVec (← ly)) x_rand_stmt
  let pf_rand_stmt ← FieldMat.add
    (← FieldMat.rightMul (sch 4) (← FieldMat.rightMul (sch 3) x_rand_trans gamma true) S true)
    (← FieldMat.neg (← FieldMat.transpose T))
  let v1 ← V
  let pf_rand_stmt_com2 ← leftMul (sch 5) v1 pf_rand_stmt
  let pi ← colVecToVec (← ComMat.add (← ComMat.add x_rand_lin_b x_rand_stmt_lin_y) pf_rand_stmt_com2)
  assertEq pi.length p
  let y_rand_lin_a ← leftMul (sch 6) (vecToColVec (← la)) y_rand_trans
  let y_rand_stmt ← FieldMat.rightMul (sch 7) y_rand_trans (← FieldMat.transpose gamma) true
  let y_rand_stmt_lin_x ← leftMul (sch 8) (vecToColVec (← lx)) y_rand_stmt
  let u1 ← U
  let pf_rand_com1 ← leftMul (sch 9) u1 T
  let theta ← colVecToVec (← ComMat.add (← ComMat.add y_rand_lin_a y_rand_stmt_lin_x) pf_rand_com1)
  assertEq theta.length q
  pure (⟨pi, theta, ty, T⟩, rng)

theorem proveCoreRaw_nat (h1 : Carries F f1) (h2 : Carries F f2) (sch : Nat → Scheduler) (ty : EquType) (p q xlen ylen : Nat)
    (R S gamma T : Matrix F) (lb ly : Res (List (Com G2))) (V : Res (Matrix (Com G2)))
    (la lx : Res (List (Com G1))) (U : Res (Matrix (Com G1))) (rng : ρ) :
    proveCoreRaw sch ty p q xlen ylen R S gamma T (lb.map (List.map (Com.on f2))) (ly.map (List.map (Com.on f2)))
        (V.map (List.map (List.map (Com.on f2)))) (la.map (List.map (Com.on f1))) (lx.map (List.map (Com.on f1)))
        (U.map (List.map (List.map (Com.on f1)))) rng =
      (proveCoreRaw sch ty p q xlen ylen R S gamma T lb ly V la lx U rng).map (Prod.map (EquProof.on f1 f2) id) := by
  unfold proveCoreRaw
  simp only [map_bind, bind_map', vecToColVec_map, leftMul_nat h1, leftMul_nat h2, add_nat h1, add_nat h2, colVecToVec_map,
    List.length_map]
  rfl

variable [Rng ρ F G1 G2]

theorem ppe_proveRaw_eq (sch : Nat → Scheduler) (self : PPE F G1 G2 GT) (xvars : List G1) (yvars : List G2)
    (xcoms : Commit F G1) (ycoms : Commit F G2) (crs : CRS G1 G2 GT) (rng : ρ) :
    self.proveRaw sch xvars yvars xcoms ycoms crs rng =
      proveCoreRaw sch .PairingProduct 2 2 xvars.length yvars.length xcoms.rand ycoms.rand self.gamma
        [[(d1 F G1 G2 rng).1, (d1 F G1 G2 (d1 F G1 G2 rng).2).1],
          [(d1 F G1 G2 (d1 F G1 G2 (d1 F G1 G2 rng).2).2).1,
           (d1 F G1 G2 (d1 F G1 G2 (d1 F G1 G2 (d1 F G1 G2 rng).2).2).2).1]]
        (.ok (Com2.batchLinearMap self.b_consts)) (.ok (Com2.batchLinearMap yvars)) (.ok (vecToColVec crs.v))
        (.ok (Com1.batchLinearMap self.a_consts)) (.ok (Com1.batchLinearMap xvars)) (.ok (vecToColVec crs.u))
        (d1 F G1 G2 (d1 F G1 G2 (d1 F G1 G2 (d1 F G1 G2 rng).2).2).2).2 := rfl

theorem msmeg1_proveRaw_eq (sch : Nat → Scheduler) (self : MSMEG1 F G1) (xvars : List G1) (yvars : List F)
    (xcoms : Commit F G1) (ycoms : Commit F G2) (crs : CRS G1 G2 GT) (rng : ρ) :
    self.proveRaw sch xvars yvars xcoms ycoms crs rng =
      proveCoreRaw sch .MultiScalarG1 2 1 xvars.length yvars.length xcoms.rand ycoms.rand self.gamma
        [[(d1 F G1 G2 rng).1, (d1 F G1 G2 (d1 F G1 G2 rng).2).1]]
        (collect (fun x => scalarLinearMap2 x crs) self.b_consts) (collect (fun x => scalarLinearMap2 x crs) yvars)
        (do pure [[← idx crs.v 0]])
        (.ok (Com1.batchLinearMap self.a_consts)) (.ok (Com1.batchLinearMap xvars)) (.ok (vecToColVec crs.u))
        (d1 F G1 G2 (d1 F G1 G2 rng).2).2 := by
  simp only [MSMEG1.proveRaw, proveCoreRaw, bind_assoc, pure_bind, ok_bind]

theorem msmeg2_proveRaw_eq (sch : Nat → Scheduler) (self : MSMEG2 F G2) (xvars : List F) (yvars : List G2)
    (xcoms : Commit F G1) (ycoms : Commit F G2) (crs : CRS G1 G2 GT) (rng : ρ) :
    self.proveRaw sch xvars yvars xcoms ycoms crs rng =
      proveCoreRaw sch .MultiScalarG2 1 2 xvars.length yvars.length xcoms.rand ycoms.rand self.gamma
        [[(d1 F G1 G2 rng).1], [(d1 F G1 G2 (d1 F G1 G2 rng).2).1]]
        (.ok (Com2.batchLinearMap self.b_consts)) (.ok (Com2.batchLinearMap yvars)) (.ok (vecToColVec crs.v))
        (collect (fun x => scalarLinearMap1 x crs) self.a_consts) (collect (fun x => scalarLinearMap1 x crs) xvars)
        (do pure [[← idx crs.u 0]])
        (d1 F G1 G2 (d1 F G1 G2 rng).2).2 := by
  simp only [MSMEG2.proveRaw, proveCoreRaw, bind_assoc, pure_bind, ok_bind]

theorem quad_proveRaw_eq (sch : Nat → Scheduler) (self : QuadEqu F) (xvars yvars : List F)
    (xcoms : Commit F G1) (ycoms : Commit F G2) (crs : CRS G1 G2 GT) (rng : ρ) :
    self.proveRaw sch xvars yvars xcoms ycoms crs rng =
      proveCoreRaw sch .Quadratic 1 1 xvars.length yvars.length xcoms.rand ycoms.rand self.gamma
        [[(d1 F G1 G2 rng).1]]
        (collect (fun x => scalarLinearMap2 x crs) self.b_consts) (collect (fun x => scalarLinearMap2 x crs) yvars)
        (do pure [[← idx crs.v 0]])
        (collect (fun x => scalarLinearMap1 x crs) self.a_consts) (collect (fun x => scalarLinearMap1 x crs) xvars)
        (do pure [[← idx crs.u 0]])
        (d1 F G1 G2 rng).2 := by
  simp only [QuadEqu.proveRaw, proveCoreRaw, bind_assoc, pure_bind]

theorem key1_nat {α β : Type} (h : α → β) (l : List α) :
    (do pure [[← idx (l.map h) 0]] : Res (Matrix β)) = (do pure [[← idx l 0]] : Res (Matrix α)).map (List.map (List.map h)) := by
  rw [idx_map]
  cases idx l 0 <;> rfl

end Prove

/-! ### Commitments -/

section Commit
variable [Add G1] [Neg G1] [Zero G1] [SMul F G1] [Add G2] [Neg G2] [Zero G2] [SMul F G2]
  [Add H1] [Neg H1] [Zero H1] [SMul F H1] [Add H2] [Neg H2] [Zero H2] [SMul F H2] {f1 : G1 → H1} {f2 : G2 → H2} {ρ : Type} [Rng ρ F G1 G2] [Rng ρ F H1 H2]

theorem draw_same (hr : SameScalars ρ F G1 G2 H1 H2) : (Rng.randF H1 H2 : ρ → F × ρ) = Rng.randF G1 G2 := funext hr

theorem key_u (key : CRS G1 G2 GT) : vecToColVec (key.on f1 f2).u = (vecToColVec key.u).map (List.map (Com.on f1)) :=
  vecToColVec_map _ _
theorem key_v (key : CRS G1 G2 GT) : vecToColVec (key.on f1 f2).v = (vecToColVec key.v).map (List.map (Com.on f2)) :=
  vecToColVec_map _ _

theorem commitG1_nat (h1 : Carries F f1) (hr : SameScalars ρ F G1 G2 H1 H2) (x : G1) (key : CRS G1 G2 GT) (rng : ρ) :
    commitG1 (F := F) (f1 x) (key.on f1 f2) rng = (commitG1 (F := F) x key rng).map (Prod.map (Commit.on f1) id) := by
  unfold commitG1
  simp only [draw_same hr, key_u, idx2_map, map_bind, bind_map']
  congr 1; funext a
  congr 1; funext b
  refine congrArg Except.ok ?_
  simp only [Prod.map, Commit.on, List.map_cons, List.map_nil, on_add' h1, on_scalarMul' h1, Com1.linearMap, on_emb' h1, id]

theorem commitG2_nat (h2 : Carries F f2) (hr : SameScalars ρ F G1 G2 H1 H2) (x : G2) (key : CRS G1 G2 GT) (rng : ρ) :
    commitG2 (F := F) (f2 x) (key.on f1 f2) rng = (commitG2 (F := F) x key rng).map (Prod.map (Commit.on f2) id) := by
  unfold commitG2
  simp only [draw_same hr, key_v, idx2_map, map_bind, bind_map']
  congr 1; funext a
  congr 1; funext b
  refine congrArg Except.ok ?_
  simp only [Prod.map, Commit.on, List.map_cons, List.map_nil, on_add' h2, on_scalarMul' h2, Com2.linearMap, on_emb' h2, id]

theorem commitScalarToB1_nat (h1 : Carries F f1) (hr : SameScalars ρ F G1 G2 H1 H2) (x : F) (key : CRS G1 G2 GT) (rng : ρ) :
    commitScalarToB1 x (key.on f1 f2) rng = (commitScalarToB1 x key rng).map (Prod.map (Commit.on f1) id) := by
  unfold commitScalarToB1
  simp only [draw_same hr, key_u, scalar1_nat (f2 := f2) h1, idx2_map, map_bind, bind_map']
  congr 1; funext a
  congr 1; funext b
  refine congrArg Except.ok ?_
  simp only [Prod.map, Commit.on, List.map_cons, List.map_nil, on_add' h1, on_scalarMul' h1, id]

theorem commitScalarToB2_nat (h2 : Carries F f2) (hr : SameScalars ρ F G1 G2 H1 H2) (x : F) (key : CRS G1 G2 GT) (rng : ρ) :
    commitScalarToB2 x (key.on f1 f2) rng = (commitScalarToB2 x key rng).map (Prod.map (Commit.on f2) id) := by
  unfold commitScalarToB2
  simp only [draw_same hr, key_v, scalar2_nat (f1 := f1) h2, idx2_map, map_bind, bind_map']
  congr 1; funext a
  congr 1; funext b
  refine congrArg Except.ok ?_
  simp only [Prod.map, Commit.on, List.map_cons, List.map_nil, on_add' h2, on_scalarMul' h2, id]

theorem batchCommitG1_nat (h1 : Carries F f1) (hr : SameScalars ρ F G1 G2 H1 H2) (x : List G1) (key : CRS G1 G2 GT) (rng : ρ) :
    batchCommitG1 (F := F) (x.map f1) (key.on f1 f2) rng = (batchCommitG1 (F := F) x key rng).map (Prod.map (Commit.on f1) id) := by
  unfold batchCommitG1
  simp only [draw_same hr, key_u, List.length_map, batch1_nat h1, vecToColVec_map, leftMulSeq_nat h1, add_nat h1, colVecToVec_map, map_bind,
    bind_map']
  rfl

theorem batchCommitG2_nat (h2 : Carries F f2) (hr : SameScalars ρ F G1 G2 H1 H2) (x : List G2) (key : CRS G1 G2 GT) (rng : ρ) :
    batchCommitG2 (F := F) (x.map f2) (key.on f1 f2) rng = (batchCommitG2 (F := F) x key rng).map (Prod.map (Commit.on f2) id) := by
  unfold batchCommitG2
  simp only [draw_same hr, key_v, List.length_map, batch2_nat h2, vecToColVec_map, leftMulSeq_nat h2, add_nat h2, colVecToVec_map, map_bind,
    bind_map']
  rfl

theorem blind_nat {G H : Type} [Add G] [Neg G] [Zero G] [SMul F G] [Add H] [Neg H] [Zero H] [SMul F H] {f : G → H} (hf : Carries F f)
    (u : Matrix (Com G)) (rs : List F) :
    collect (fun sca => do pure (scalarMul (← idx2 (u.map (List.map (Com.on f))) 0 0) sca)) rs =
      (collect (fun sca => do pure (scalarMul (← idx2 u 0 0) sca)) rs).map (List.map (Com.on f)) := by
  rw [← collect_map']
  congr 1
  funext sca
  rw [idx2_map, map_bind, bind_map']
  congr 1
  funext c
  exact congrArg Except.ok (on_scalarMul' hf c sca).symm

theorem batchCommitScalarToB1_nat (h1 : Carries F f1) (hr : SameScalars ρ F G1 G2 H1 H2) (x : List F) (key : CRS G1 G2 GT) (rng : ρ) :
    batchCommitScalarToB1 x (key.on f1 f2) rng = (batchCommitScalarToB1 x key rng).map (Prod.map (Commit.on f1) id) := by
  unfold batchCommitScalarToB1
  simp only [draw_same hr, key_u, batchScalar1_nat (f2 := f2) h1, blind_nat h1, vecToColVec_map, add_nat h1, colVecToVec_map, map_bind, bind_map']
  rfl

theorem batchCommitScalarToB2_nat (h2 : Carries F f2) (hr : SameScalars ρ F G1 G2 H1 H2) (x : List F) (key : CRS G1 G2 GT) (rng : ρ) :
    batchCommitScalarToB2 x (key.on f1 f2) rng = (batchCommitScalarToB2 x key rng).map (Prod.map (Commit.on f2) id) := by
  unfold batchCommitScalarToB2
  simp only [draw_same hr, key_v, batchScalar2_nat (f1 := f1) h2, blind_nat h2, vecToColVec_map, add_nat h2, colVecToVec_map, map_bind, bind_map']
  rfl

end Commit

/-! ### Closed forms -/

section Closed
variable [AddCommGroup G] [SMul F G]

theorem leftMul_matOf {m k n : Nat} (hm : 0 < m) (hk : 0 < k) (hn : 0 < n) (sch : Scheduler)
    (f : Fin m → Fin k → F) (g : Fin k → Fin n → Com G) :
    leftMul sch (matOf g) (matOf f) = .ok (matOf fun i j => ∑ l, scalarMul (g l j) (f i l)) := by
  unfold leftMul
  have hL := isEmptyMat_matOf hm hk f
  have hR := isEmptyMat_matOf hk hn g
  simp only [hL, hR, Bool.false_eq_true, if_false]
  exact (product_core (b := true) sch hL hR fun i j v hi => entry_col_first (act := fun a r => scalarMul a r) hi).mpr
    (isProduct_matOf hm hk hn f g _)

theorem leftMulSeq_matOf {m k n : Nat} (hm : 0 < m) (hk : 0 < k) (hn : 0 < n)
    (f : Fin m → Fin k → F) (g : Fin k → Fin n → Com G) :
    leftMulSeq (matOf g) (matOf f) = .ok (matOf fun i j => ∑ l, scalarMul (g l j) (f i l)) := by
  unfold leftMulSeq
  have hL := isEmptyMat_matOf hm hk f
  have hR := isEmptyMat_matOf hk hn g
  simp only [hL, hR, Bool.false_eq_true, if_false]
  exact (product_core (b := false) seqSched hL hR fun i j v hi => entry_col_first (act := fun a r => scalarMul a r) hi).mpr
    (isProduct_matOf hm hk hn f g _)

/-- `Com.on` as a homomorphism. -/
def onHom {H : Type} [AddCommGroup H] [SMul F H] {t : G → H} (ht : Projects F t) : Com G →+ Com H where
  toFun := Com.on t
  map_zero' := by
    show (⟨t 0, t 0⟩ : Com H) = ⟨0, 0⟩
    rw [proj_zero' ht]
  map_add' := on_add' (carries ht)

end Closed

section closed
variable [AddCommGroup G1] [SMul F G1] [AddCommGroup G2] [SMul F G2] [AddCommGroup GT] {ρ : Type}
variable {m n p q : Nat}

theorem proveCoreRaw_matOf (sch : Nat → Scheduler) (ty : EquType) (hm : 0 < m) (hn : 0 < n) (hp : 0 < p) (hq : 0 < q)
    (R : Fin m → Fin p → F) (S : Fin n → Fin q → F) (γ : Fin m → Fin n → F) (T : Fin q → Fin p → F)
    (b : Fin m → Com G2) (y : Fin n → Com G2) (v : Fin q → Com G2)
    (a : Fin n → Com G1) (x : Fin m → Com G1) (u : Fin p → Com G1) (rng : ρ) :
    ∃ (c : Fin p → Fin n → F) (d : Fin p → Fin q → F) (c' : Fin q → Fin m → F) (pf : EquProof F G1 G2),
    proveCoreRaw sch ty p q m n (matOf R) (matOf S) (matOf γ) (matOf T)
      (.ok (List.ofFn b)) (.ok (List.ofFn y)) (.ok (vecToColVec (List.ofFn v)))
      (.ok (List.ofFn a)) (.ok (List.ofFn x)) (.ok (vecToColVec (List.ofFn u))) rng = .ok (pf, rng) ∧
    (pf.pi = List.ofFn fun k => ∑ j, scalarMul (b j) (R j k) + ∑ l, scalarMul (y l) (c k l) + ∑ i, scalarMul (v i) (d k i)) ∧
    pf.theta = List.ofFn fun k => ∑ j, scalarMul (a j) (S j k) + ∑ l, scalarMul (x l) (c' k l) + ∑ i, scalarMul (u i) (T k i) := by
  have one : 0 < 1 := Nat.one_pos
  refine ⟨fun k l => ∑ j, R j k * γ j l, fun k i => ∑ l, (∑ j, R j k * γ j l) * S l i + -(T i k), fun k l => ∑ j, S j k * γ l j,
    ⟨_, _, ty, matOf T⟩, ?_, rfl, rfl⟩
  simp only [proveCoreRaw, length_matOf, assertEq_self, ok_bind, idx_matOf_lt R hm, idx_matOf_lt S hn,
    idx_matOf_lt γ hm, List.length_ofFn, FieldMat.transpose_matOf hm, FieldMat.transpose_matOf hn,
    FieldMat.transpose_matOf hq, vecToColVec_ofFn, leftMul_matOf hp hm one,
    FieldMat.rightMul_matOf hp hm hn, leftMul_matOf hp hn one, FieldMat.rightMul_matOf hp hn hq,
    FieldMat.neg_matOf, FieldMat.add_matOf hp, leftMul_matOf hp hq one, ComMat.add_matOf hp,
    colVecToVec_matOf, leftMul_matOf hq hn one, FieldMat.rightMul_matOf hq hn hm,
    leftMul_matOf hq hm one, leftMul_matOf hq hp one, ComMat.add_matOf hq, pure_eq_ok]
  rfl

end closed

/-! ### Closed forms of runs -/

section run

theorem blindG {G : Type} [AddCommGroup G] [SMul F G] {n : Nat} (hn : 0 < n) (lin : Fin n → Com G) (u0 u1 : Com G) (R : Fin n → F × F) :
    (do let ru ← leftMulSeq (vecToColVec [u0, u1]) ((List.ofFn R).map fun p => [p.1, p.2])
        let coms ← ComMat.add (vecToColVec (List.ofFn lin)) ru
        colVecToVec coms : Res (List (Com G))) =
      .ok (List.ofFn fun i => lin i + (scalarMul u0 (R i).1 + scalarMul u1 (R i).2)) := by
  have hu : [u0, u1] = List.ofFn (fun k : Fin 2 => if k = 0 then u0 else u1) := by simp [List.ofFn_succ]
  rw [map_pair_ofFn, hu, vecToColVec_ofFn, vecToColVec_ofFn, leftMulSeq_matOf hn (by decide) (by decide), ok_bind,
    ComMat.add_matOf hn, ok_bind, colVecToVec_matOf]
  simp [Fin.sum_univ_two]

variable [AddCommGroup G1] [SMul F G1] [AddCommGroup G2] [SMul F G2] [AddCommGroup GT] {ρ : Type} [Rng ρ F G1 G2]

theorem batchCommitG1_closed {x : List G1} (hx : x ≠ []) {key : CRS G1 G2 GT} {u0 u1 : Com G1} (hu : key.u = [u0, u1]) (rng : ρ) :
    batchCommitG1 (F := F) x key rng =
      .ok (⟨List.zipWith (fun x (p : F × F) => Com1.linearMap x + (scalarMul u0 p.1 + scalarMul u1 p.2)) x
              (drawPairs (Rng.randF (F := F) G1 G2) x.length rng).1,
            (drawPairs (Rng.randF (F := F) G1 G2) x.length rng).1.map fun p => [p.1, p.2]⟩,
          (drawPairs (Rng.randF (F := F) G1 G2) x.length rng).2) := by
  have hB : batchCommitG1 (F := F) x key rng = (do
      let c ← (do let ru ← leftMulSeq (vecToColVec key.u) ((drawPairs (Rng.randF (F := F) G1 G2) x.length rng).1.map fun p => [p.1, p.2])
                  let coms ← ComMat.add (vecToColVec (Com1.batchLinearMap x)) ru
                  colVecToVec coms : Res (List (Com G1)))
      pure (⟨c, (drawPairs (Rng.randF (F := F) G1 G2) x.length rng).1.map fun p => [p.1, p.2]⟩,
        (drawPairs (Rng.randF (F := F) G1 G2) x.length rng).2)) := by
    simp only [batchCommitG1, drawRows2_eq, bind_assoc]
  rw [hB, hu]
  have hpos := List.length_pos_iff.mpr hx
  clear hB
  obtain ⟨m, hxm⟩ : ∃ m, x.length = m := ⟨_, rfl⟩
  rw [hxm] at hpos ⊢
  obtain ⟨x', rfl⟩ := exists_ofFn x hxm
  obtain ⟨R, hR⟩ := exists_ofFn (drawPairs (Rng.randF (F := F) G1 G2) m rng).1 (drawPairs_length _ _ _)
  have e1 : Com1.batchLinearMap (List.ofFn x') = List.ofFn fun i => Com1.linearMap (x' i) := by
    rw [Com1.batchLinearMap, List.map_ofFn]
    rfl
  rw [e1, hR, blindG hpos, ok_bind, zipWith_ofFn]
  rfl

theorem batchCommitG2_closed {x : List G2} (hx : x ≠ []) {key : CRS G1 G2 GT} {u0 u1 : Com G2} (hu : key.v = [u0, u1]) (rng : ρ) :
    batchCommitG2 (F := F) x key rng =
      .ok (⟨List.zipWith (fun x (p : F × F) => Com2.linearMap x + (scalarMul u0 p.1 + scalarMul u1 p.2)) x
              (drawPairs (Rng.randF (F := F) G1 G2) x.length rng).1,
            (drawPairs (Rng.randF (F := F) G1 G2) x.length rng).1.map fun p => [p.1, p.2]⟩,
          (drawPairs (Rng.randF (F := F) G1 G2) x.length rng).2) := by
  have hB : batchCommitG2 (F := F) x key rng = (do
      let c ← (do let ru ← leftMulSeq (vecToColVec key.v) ((drawPairs (Rng.randF (F := F) G1 G2) x.length rng).1.map fun p => [p.1, p.2])
                  let coms ← ComMat.add (vecToColVec (Com2.batchLinearMap x)) ru
                  colVecToVec coms : Res (List (Com G2)))
      pure (⟨c, (drawPairs (Rng.randF (F := F) G1 G2) x.length rng).1.map fun p => [p.1, p.2]⟩,
        (drawPairs (Rng.randF (F := F) G1 G2) x.length rng).2)) := by
    simp only [batchCommitG2, drawRows2_eq, bind_assoc]
  rw [hB, hu]
  have hpos := List.length_pos_iff.mpr hx
  clear hB
  obtain ⟨m, hxm⟩ : ∃ m, x.length = m := ⟨_, rfl⟩
  rw [hxm] at hpos ⊢
  obtain ⟨x', rfl⟩ := exists_ofFn x hxm
  obtain ⟨R, hR⟩ := exists_ofFn (drawPairs (Rng.randF (F := F) G1 G2) m rng).1 (drawPairs_length _ _ _)
  have e1 : Com2.batchLinearMap (List.ofFn x') = List.ofFn fun i => Com2.linearMap (x' i) := by
    rw [Com2.batchLinearMap, List.map_ofFn]
    rfl
  rw [e1, hR, blindG hpos, ok_bind, zipWith_ofFn]
  rfl

section leak
variable {G T : Type} [AddCommGroup G] [SMul F G] [AddCommGroup T] [SMul F T] {t : G → T} (ht : Projects F t)
  (hz : ∀ a : F, a • (0 : T) = 0)
include ht hz

theorem on_scalarMul_zero {c : Com G} (h0 : t c.c0 = 0) (h1 : t c.c1 = 0) (a : F) : (scalarMul c a).on t = 0 := by
  rw [on_scalarMul' (carries ht)]
  show (⟨a • t c.c0, a • t c.c1⟩ : Com T) = ⟨0, 0⟩
  rw [h0, h1, hz]

theorem pi_on {m n q : Nat} (b : Fin m → G) (r : Fin m → F) (y : Fin n → G) (c : Fin n → F) (v : Fin q → Com G) (d : Fin q → F)
    (hy : ∀ i, t (y i) = 0) (hv : ∀ i, t (v i).c0 = 0 ∧ t (v i).c1 = 0) :
    (∑ j, scalarMul (⟨0, b j⟩ : Com G) (r j) + ∑ l, scalarMul (⟨0, y l⟩ : Com G) (c l) + ∑ i, scalarMul (v i) (d i)).on t =
      ⟨0, ∑ j, r j • t (b j)⟩ := by
  have h0 := proj_zero' ht
  show onHom ht _ = _
  rw [map_add, map_add, map_sum, map_sum, map_sum]
  have e2 : ∑ l, onHom ht (scalarMul (⟨0, y l⟩ : Com G) (c l)) = 0 :=
    Finset.sum_eq_zero fun l _ => on_scalarMul_zero ht hz (c := ⟨0, y l⟩) h0 (hy l) _
  have e3 : ∑ i, onHom ht (scalarMul (v i) (d i)) = 0 :=
    Finset.sum_eq_zero fun i _ => on_scalarMul_zero ht hz (hv i).1 (hv i).2 _
  rw [e2, e3, add_zero, add_zero]
  have e1 : ∀ j, onHom ht (scalarMul (⟨0, b j⟩ : Com G) (r j)) = ⟨0, r j • t (b j)⟩ := by
    intro j
    show (⟨t (r j • 0), t (r j • b j)⟩ : Com T) = _
    rw [ht.smul, ht.smul, h0, hz]
  simp only [e1]
  let emb : T →+ Com T := ⟨⟨fun x => ⟨0, x⟩, rfl⟩, fun x y => by
    show (⟨0, x + y⟩ : Com T) = ⟨0 + 0, x + y⟩
    rw [add_zero]⟩
  exact (map_sum emb _ _).symm

end leak

/-- A run of `commit_and_prove` for a PPE. -/
theorem ppe_run (sch : Nat → Scheduler) (equ : PPE F G1 G2 GT) {x : List G1} {y : List G2} {crs : CRS G1 G2 GT} (rng : ρ)
    (hx : x ≠ []) (hy : y ≠ []) (hd : equ.Dims x.length y.length) {u0 u1 : Com G1} {v0 v1 : Com G2}
    (hu : crs.u = [u0, u1]) (hv : crs.v = [v0, v1]) :
    ∃ (R S : List (F × F)) (pf : EquProof F G1 G2) (rng' : ρ), R.length = x.length ∧ S.length = y.length ∧
      equ.commitAndProveRaw sch x y crs rng = .ok (⟨
        ⟨List.zipWith (fun x (p : F × F) => Com1.linearMap x + (scalarMul u0 p.1 + scalarMul u1 p.2)) x R, R.map fun p => [p.1, p.2]⟩,
        ⟨List.zipWith (fun x (p : F × F) => Com2.linearMap x + (scalarMul v0 p.1 + scalarMul v1 p.2)) y S, S.map fun p => [p.1, p.2]⟩,
        [pf]⟩, rng') ∧
      (∀ {T : Type} [AddCommGroup T] [SMul F T] {t : G2 → T}, Projects F t → (∀ a : F, a • (0 : T) = 0) → (∀ y' ∈ y, t y' = 0) →
        (∀ c ∈ crs.v, t c.c0 = 0 ∧ t c.c1 = 0) → pf.pi.map (Com.on t) =
          [⟨0, (List.zipWith (fun b (p : F × F) => p.1 • t b) equ.b_consts R).sum⟩,
            ⟨0, (List.zipWith (fun b (p : F × F) => p.2 • t b) equ.b_consts R).sum⟩]) ∧
      (∀ {T : Type} [AddCommGroup T] [SMul F T] {t : G1 → T}, Projects F t → (∀ a : F, a • (0 : T) = 0) → (∀ x' ∈ x, t x' = 0) →
        (∀ c ∈ crs.u, t c.c0 = 0 ∧ t c.c1 = 0) → pf.theta.map (Com.on t) =
          [⟨0, (List.zipWith (fun a (p : F × F) => p.1 • t a) equ.a_consts S).sum⟩,
            ⟨0, (List.zipWith (fun a (p : F × F) => p.2 • t a) equ.a_consts S).sum⟩]) := by
  have hm := List.length_pos_iff.mpr hx
  have hn := List.length_pos_iff.mpr hy
  have hrun : ∀ r s k, batchCommitG1 (F := F) x crs rng = .ok (r, s) → batchCommitG2 (F := F) y crs s = .ok k →
      equ.commitAndProveRaw sch x y crs rng = (do
        let (pf, rng) ← equ.proveRaw sch x y r k.1 crs k.2
        pure (⟨r, k.1, [pf]⟩, rng)) := by
    intro r s k h1 h2
    unfold PPE.commitAndProveRaw
    rw [h1, ok_bind]
    dsimp only
    rw [h2, ok_bind]
  rw [hrun _ _ _ (batchCommitG1_closed hx hu rng) (batchCommitG2_closed hy hv _), ppe_proveRaw_eq]
  clear hrun
  dsimp only
  obtain ⟨m, hxm⟩ : ∃ m, x.length = m := ⟨_, rfl⟩
  obtain ⟨n, hyn⟩ : ∃ n, y.length = n := ⟨_, rfl⟩
  rw [hxm] at hm hd ⊢
  rw [hyn] at hn hd ⊢
  generalize (drawPairs (Rng.randF (F := F) G1 G2) m rng).2 = s1
  obtain ⟨R, hR⟩ := exists_ofFn (drawPairs (Rng.randF (F := F) G1 G2) m rng).1 (drawPairs_length _ _ _)
  generalize (drawPairs (Rng.randF (F := F) G1 G2) n s1).2 = s2
  obtain ⟨S, hS⟩ := exists_ofFn (drawPairs (Rng.randF (F := F) G1 G2) n s1).1 (drawPairs_length _ _ _)
  rw [hR, hS]
  obtain ⟨a, ha⟩ := exists_ofFn equ.a_consts hd.a
  obtain ⟨b, hb⟩ := exists_ofFn equ.b_consts hd.b
  obtain ⟨γ, hγ⟩ := rect_iff.mp (⟨hd.rows, hd.cols⟩ : Rect _ _ equ.gamma)
  obtain ⟨x', hx'⟩ := exists_ofFn x hxm
  obtain ⟨y', hy'⟩ := exists_ofFn y hyn
  have ofFn2 : ∀ {α : Type} (u0 u1 : α), [u0, u1] = List.ofFn ![u0, u1] := fun _ _ => by simp [List.ofFn_succ]
  have lin1 : ∀ {n : Nat} (x : Fin n → G1), Com1.batchLinearMap (List.ofFn x) = List.ofFn fun i => ⟨0, x i⟩ := fun x => by
    rw [Com1.batchLinearMap, List.map_ofFn]; rfl
  have lin2 : ∀ {n : Nat} (x : Fin n → G2), Com2.batchLinearMap (List.ofFn x) = List.ofFn fun i => ⟨0, x i⟩ := fun x => by
    rw [Com2.batchLinearMap, List.map_ofFn]; rfl
  have m22 : ∀ a b c d : F, [[a, b], [c, d]] = matOf ![![a, b], ![c, d]] := fun _ _ _ _ => by simp [matOf, List.ofFn_succ]
  have ex : Com1.batchLinearMap x = List.ofFn fun i => ⟨0, x' i⟩ := by rw [hx', lin1]
  have ey : Com2.batchLinearMap y = List.ofFn fun i => ⟨0, y' i⟩ := by rw [hy', lin2]
  rw [ex, ey, map_pair_ofFn, map_pair_ofFn, m22, hγ, ha, hb, lin1, lin2, hu, hv, ofFn2 u0 u1, ofFn2 v0 v1]
  obtain ⟨c, d, c', pf, h, hpi, hth⟩ := proveCoreRaw_matOf sch .PairingProduct hm hn (by decide) (by decide)
    (fun i (k : Fin 2) => if k = 0 then (R i).1 else (R i).2) (fun i (k : Fin 2) => if k = 0 then (S i).1 else (S i).2) γ
    ![![(d1 F G1 G2 s2).1, (d1 F G1 G2 (d1 F G1 G2 s2).2).1],
      ![(d1 F G1 G2 (d1 F G1 G2 (d1 F G1 G2 s2).2).2).1, (d1 F G1 G2 (d1 F G1 G2 (d1 F G1 G2 (d1 F G1 G2 s2).2).2).2).1]]
    (fun i => (⟨0, b i⟩ : Com G2)) (fun i => ⟨0, y' i⟩) ![v0, v1] (fun i => (⟨0, a i⟩ : Com G1)) (fun i => ⟨0, x' i⟩) ![u0, u1]
    (d1 F G1 G2 (d1 F G1 G2 (d1 F G1 G2 (d1 F G1 G2 s2).2).2).2).2
  refine ⟨List.ofFn R, List.ofFn S, pf, (d1 F G1 G2 (d1 F G1 G2 (d1 F G1 G2 (d1 F G1 G2 s2).2).2).2).2, by simp, by simp, ?_, ?_, ?_⟩
  · exact (congrArg (fun r => r >>= _) h).trans (by rw [ok_bind, map_pair_ofFn, map_pair_ofFn]; rfl)
  · intro T _ _ t ht hz hy0 hv0
    have hy1 : ∀ i, t (y' i) = 0 := fun i => hy0 _ (by rw [hy', List.mem_ofFn]; exact ⟨i, rfl⟩)
    have hv1 : ∀ i : Fin 2, t (![v0, v1] i).c0 = 0 ∧ t (![v0, v1] i).c1 = 0 := by
      rw [← ofFn2] at hv0
      intro i
      fin_cases i
      · exact hv0 v0 (by simp)
      · exact hv0 v1 (by simp)
    rw [hpi]
    simp only [List.map_ofFn, Function.comp_def, pi_on ht hz _ _ _ _ _ _ hy1 hv1, zipWith_ofFn, List.sum_ofFn]
    simp [List.ofFn_succ]
  · intro T _ _ t ht hz hx0 hu0
    have hx1 : ∀ i, t (x' i) = 0 := fun i => hx0 _ (by rw [hx', List.mem_ofFn]; exact ⟨i, rfl⟩)
    have hu1 : ∀ i : Fin 2, t (![u0, u1] i).c0 = 0 ∧ t (![u0, u1] i).c1 = 0 := by
      rw [← ofFn2] at hu0
      intro i
      fin_cases i
      · exact hu0 u0 (by simp)
      · exact hu0 u1 (by simp)
    rw [hth]
    simp only [List.map_ofFn, Function.comp_def, pi_on ht hz _ _ _ _ _ _ hx1 hu1, zipWith_ofFn, List.sum_ofFn]
    simp [List.ofFn_succ]

end run

theorem zip_sum_single {G T : Type} [AddCommGroup T] [SMul F T] {t : G → T} (hz : ∀ a : F, a • (0 : T) = 0) (g : F × F → F) (b : G)
    (p : F × F) : ∀ (l : List G) (r : List (F × F)) (i : Nat), l[i]? = some b → r[i]? = some p →
      (∀ j b', j ≠ i → l[j]? = some b' → t b' = 0) → (List.zipWith (fun b p => g p • t b) l r).sum = g p • t b := by
  have zero : ∀ (l : List G) (r : List (F × F)), (∀ b' ∈ l, t b' = 0) → (List.zipWith (fun b p => g p • t b) l r).sum = 0 := by
    intro l
    induction l with
    | nil => intro r _; simp
    | cons a l ih =>
      intro r h
      cases r with
      | nil => simp
      | cons q r =>
        rw [List.zipWith_cons_cons, List.sum_cons, h a (by simp), hz, zero_add]
        exact ih r fun b' hb' => h b' (by simp [hb'])
  intro l
  induction l with
  | nil => intro r i h; simp at h
  | cons a l ih =>
    intro r i h hr h0
    cases r with
    | nil => simp at hr
    | cons q r =>
      rw [List.zipWith_cons_cons, List.sum_cons]
      cases i with
      | zero =>
        simp only [List.getElem?_cons_zero, Option.some.injEq] at h hr
        subst h hr
        rw [zero l r, add_zero]
        intro b' hb'
        obtain ⟨j, hj⟩ := List.mem_iff_getElem?.mp hb'
        exact h0 (j + 1) b' (by omega) (by simpa using hj)
      | succ i =>
        rw [h0 0 a (by omega) (by simp), hz, zero_add]
        exact ih r i (by simpa using h) (by simpa using hr) fun j b' hj hb' => h0 (j + 1) b' (by omega) (by simpa using hb')

theorem mem_of_idx2 {α : Type} {l : List α} {i j : Nat} {c : α} (h : idx2 (vecToColVec l) i j = .ok c) : c ∈ l := by
  simp only [idx2, bind_ok_iff, idx_eq_ok] at h
  obtain ⟨row, hr, hc⟩ := h
  have h1 := List.mem_of_getElem? hr
  have h2 := List.mem_of_getElem? hc
  simp only [vecToColVec, List.mem_map] at h1
  obtain ⟨a, ha, rfl⟩ := h1
  simp only [List.mem_singleton] at h2
  exact h2 ▸ ha

theorem zipWith_left {α β γ : Type} (g : α → γ) : ∀ (l : List α) (r : List β), l.length ≤ r.length →
    List.zipWith (fun x _ => g x) l r = l.map g := by
  intro l
  induction l with
  | nil => simp
  | cons a l ih =>
    intro r h
    cases r with
    | nil => simp at h
    | cons b r => simp [ih r (by simpa using h)]

theorem nsmul_mod {G : Type} [AddCommGroup G] {k m n : Nat} {x : G} (hk : k • x = 0) (h : m ≡ n [MOD k]) : m • x = n • x :=
  nsmul_eq_nsmul_iff_modEq.mpr (h.of_dvd (addOrderOf_dvd_of_nsmul_eq_zero hk))

/-! ### The provers on the images -/

section ProveOn
variable {F G1 G2 GT H1 H2 ρ : Type} [Field F] [Add G1] [Neg G1] [Zero G1] [SMul F G1] [Add G2] [Neg G2] [Zero G2] [SMul F G2]
  [Add H1] [Neg H1] [Zero H1] [SMul F H1] [Add H2] [Neg H2] [Zero H2] [SMul F H2] {f1 : G1 → H1} {f2 : G2 → H2} [Rng ρ F G1 G2] [Rng ρ F H1 H2]

theorem prove_nat (h1 : Carries F f1) (h2 : Carries F f2) (hr : SameScalars ρ F G1 G2 H1 H2) (sch : Nat → Scheduler)
    (xc : Commit F G1) (yc : Commit F G2) (crs : CRS G1 G2 GT) (rng : ρ) :
    (∀ (equ : PPE F G1 G2 GT) x y, (equ.on f1 f2).proveRaw sch (x.map f1) (y.map f2) (xc.on f1) (yc.on f2) (crs.on f1 f2) rng =
      (equ.proveRaw sch x y xc yc crs rng).map (Prod.map (EquProof.on f1 f2) id)) ∧
    (∀ (equ : MSMEG1 F G1) x y, (equ.on f1).proveRaw sch (x.map f1) y (xc.on f1) (yc.on f2) (crs.on f1 f2) rng =
      (equ.proveRaw sch x y xc yc crs rng).map (Prod.map (EquProof.on f1 f2) id)) ∧
    (∀ (equ : MSMEG2 F G2) x y, (equ.on f2).proveRaw sch x (y.map f2) (xc.on f1) (yc.on f2) (crs.on f1 f2) rng =
      (equ.proveRaw sch x y xc yc crs rng).map (Prod.map (EquProof.on f1 f2) id)) ∧
    (∀ (equ : QuadEqu F) x y, equ.proveRaw sch x y (xc.on f1) (yc.on f2) (crs.on f1 f2) rng =
      (equ.proveRaw sch x y xc yc crs rng).map (Prod.map (EquProof.on f1 f2) id)) := by
  have hd : ∀ s, (d1 F H1 H2 s : F × ρ) = d1 F G1 G2 s := hr
  refine ⟨fun equ x y => ?_, fun equ x y => ?_, fun equ x y => ?_, fun equ x y => ?_⟩
  · rw [ppe_proveRaw_eq, ppe_proveRaw_eq, ← proveCoreRaw_nat h1 h2]
    simp only [hd, List.length_map, PPE.on, Commit.on, batch1_nat h1, batch2_nat h2, key_u, key_v, Except.map]
  · rw [msmeg1_proveRaw_eq, msmeg1_proveRaw_eq, ← proveCoreRaw_nat h1 h2, ← key1_nat]
    simp only [hd, List.length_map, MSMEG1.on, Commit.on, batch1_nat h1, batchScalar2_nat (f1 := f1) h2, key_u, Except.map]
    rfl
  · rw [msmeg2_proveRaw_eq, msmeg2_proveRaw_eq, ← proveCoreRaw_nat h1 h2, ← key1_nat]
    simp only [hd, List.length_map, MSMEG2.on, Commit.on, batch2_nat h2, batchScalar1_nat (f2 := f2) h1, key_v, Except.map]
    rfl
  · rw [quad_proveRaw_eq, quad_proveRaw_eq, ← proveCoreRaw_nat h1 h2, ← key1_nat, ← key1_nat]
    simp only [hd, Commit.on, batchScalar1_nat (f2 := f2) h1, batchScalar2_nat (f1 := f1) h2]
    rfl

theorem commitAndProve_nat (h1 : Carries F f1) (h2 : Carries F f2) (hr : SameScalars ρ F G1 G2 H1 H2) (sch : Nat → Scheduler)
    (crs : CRS G1 G2 GT) (rng : ρ) :
    (∀ (equ : PPE F G1 G2 GT) x y, (equ.on f1 f2).commitAndProveRaw sch (x.map f1) (y.map f2) (crs.on f1 f2) rng =
      (equ.commitAndProveRaw sch x y crs rng).map (Prod.map (CProof.on f1 f2) id)) ∧
    (∀ (equ : MSMEG1 F G1) x y, (equ.on f1).commitAndProveRaw sch (x.map f1) y (crs.on f1 f2) rng =
      (equ.commitAndProveRaw sch x y crs rng).map (Prod.map (CProof.on f1 f2) id)) ∧
    (∀ (equ : MSMEG2 F G2) x y, (equ.on f2).commitAndProveRaw sch x (y.map f2) (crs.on f1 f2) rng =
      (equ.commitAndProveRaw sch x y crs rng).map (Prod.map (CProof.on f1 f2) id)) ∧
    (∀ (equ : QuadEqu F) x y, equ.commitAndProveRaw sch x y (crs.on f1 f2) rng =
      (equ.commitAndProveRaw sch x y crs rng).map (Prod.map (CProof.on f1 f2) id)) := by
  refine ⟨fun equ x y => ?_, fun equ x y => ?_, fun equ x y => ?_, fun equ x y => ?_⟩
  · simp only [PPE.commitAndProveRaw, batchCommitG1_nat h1 hr, batchCommitG2_nat h2 hr, map_bind, bind_map', Prod.map,
      (prove_nat h1 h2 hr ..).1, id]
    rfl
  · simp only [MSMEG1.commitAndProveRaw, batchCommitG1_nat h1 hr, batchCommitScalarToB2_nat h2 hr, map_bind, bind_map',
      Prod.map, (prove_nat h1 h2 hr ..).2.1, id]
    rfl
  · simp only [MSMEG2.commitAndProveRaw, batchCommitScalarToB1_nat h1 hr, batchCommitG2_nat h2 hr, map_bind, bind_map',
      Prod.map, (prove_nat h1 h2 hr ..).2.2.1, id]
    rfl
  · simp only [QuadEqu.commitAndProveRaw, batchCommitScalarToB1_nat h1 hr, batchCommitScalarToB2_nat h2 hr, map_bind,
      bind_map', Prod.map, (prove_nat h1 h2 hr ..).2.2.2, id]
    rfl

end ProveOn

end GS.Raw
