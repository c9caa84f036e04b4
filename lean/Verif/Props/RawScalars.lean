import Verif.Props.RawSecond

/-!
# C106: what constants outside the subgroup reveal about scalars

Runs of `commit_and_prove` for multi-scalar multiplication equations on unchecked points, src/prover/prove.rs:175-379.
-/

set_option linter.unusedSectionVars false

namespace GS
variable {F G1 G2 GT : Type} [Field F] [AddCommGroup G1] [SMul F G1] [AddCommGroup G2] [SMul F G2] [AddCommGroup GT] {ρ : Type} [Rng ρ F G1 G2]

namespace Raw

theorem drawF_len {ρ : Type} (f : ρ → F × ρ) (n : Nat) (s : ρ) : (drawF f n s).1.length = n := by
  induction n generalizing s with
  | zero => rfl
  | succ n ih => simp [drawF, ih]

theorem batchCommitScalarToB1_closed {x : List F} (hx : x ≠ []) {key : CRS G1 G2 GT} {w0 w1 : Com G1} (hw : key.u = [w0, w1]) (rng : ρ) :
    batchCommitScalarToB1 x key rng =
      .ok (⟨List.zipWith (fun x s => scalarMul (w1 + ⟨0, key.g1_gen⟩) x + scalarMul w0 s) x (GS.drawF (Rng.randF (F := F) G1 G2) x.length rng).1,
            vecToColVec (GS.drawF (Rng.randF (F := F) G1 G2) x.length rng).1⟩,
          (GS.drawF (Rng.randF (F := F) G1 G2) x.length rng).2) := by
  have hpos := List.length_pos_iff.mpr hx
  unfold batchCommitScalarToB1
  dsimp only
  rw [drawRows1_eq]
  dsimp only
  obtain ⟨m, hxm⟩ : ∃ m, x.length = m := ⟨_, rfl⟩
  rw [hxm] at hpos ⊢
  obtain ⟨x', rfl⟩ := exists_ofFn x hxm
  obtain ⟨S, hS⟩ := exists_ofFn (GS.drawF (Rng.randF (F := F) G1 G2) m rng).1 (drawF_len _ _ _)
  rw [hS, vecToColVec_ofFn, colVecToVec_matOf,
    collect_ofFn (g := fun i => scalarMul (w1 + ⟨0, key.g1_gen⟩) (x' i)) (fun i => by simp [scalarLinearMap1, hw, idx]), ok_bind, ok_bind,
    collect_ofFn (g := fun i => scalarMul w0 (S i)) (fun i => by simp [vecToColVec, hw, idx2, idx]), ok_bind, vecToColVec_ofFn,
    vecToColVec_ofFn, ComMat.add_matOf hpos, ok_bind, colVecToVec_matOf, ok_bind, zipWith_ofFn]
  rfl

theorem batchCommitScalarToB2_closed {x : List F} (hx : x ≠ []) {key : CRS G1 G2 GT} {w0 w1 : Com G2} (hw : key.v = [w0, w1]) (rng : ρ) :
    batchCommitScalarToB2 x key rng =
      .ok (⟨List.zipWith (fun x s => scalarMul (w1 + ⟨0, key.g2_gen⟩) x + scalarMul w0 s) x (GS.drawF (Rng.randF (F := F) G1 G2) x.length rng).1,
            vecToColVec (GS.drawF (Rng.randF (F := F) G1 G2) x.length rng).1⟩,
          (GS.drawF (Rng.randF (F := F) G1 G2) x.length rng).2) := by
  have hpos := List.length_pos_iff.mpr hx
  unfold batchCommitScalarToB2
  dsimp only
  rw [drawRows1_eq]
  dsimp only
  obtain ⟨m, hxm⟩ : ∃ m, x.length = m := ⟨_, rfl⟩
  rw [hxm] at hpos ⊢
  obtain ⟨x', rfl⟩ := exists_ofFn x hxm
  obtain ⟨S, hS⟩ := exists_ofFn (GS.drawF (Rng.randF (F := F) G1 G2) m rng).1 (drawF_len _ _ _)
  rw [hS, vecToColVec_ofFn, colVecToVec_matOf,
    collect_ofFn (g := fun i => scalarMul (w1 + ⟨0, key.g2_gen⟩) (x' i)) (fun i => by simp [scalarLinearMap2, hw, idx]), ok_bind, ok_bind,
    collect_ofFn (g := fun i => scalarMul w0 (S i)) (fun i => by simp [vecToColVec, hw, idx2, idx]), ok_bind, vecToColVec_ofFn,
    vecToColVec_ofFn, ComMat.add_matOf hpos, ok_bind, colVecToVec_matOf, ok_bind, zipWith_ofFn]
  rfl

/-- A run of `commit_and_prove` for a MSMEG1. -/
theorem msmeg1_run (sch : Nat → Scheduler) (equ : MSMEG1 F G1) {x : List G1} {y : List F} {crs : CRS G1 G2 GT} (rng : ρ)
    (hx : x ≠ []) (hy : y ≠ []) (hd : equ.Dims x.length y.length) {u0 u1 : Com G1} {v0 v1 : Com G2}
    (hu : crs.u = [u0, u1]) (hv : crs.v = [v0, v1]) :
    ∃ (R : List (F × F)) (S : List F) (pf : EquProof F G1 G2) (rng' : ρ), R.length = x.length ∧ S.length = y.length ∧
      equ.commitAndProveRaw sch x y crs rng = .ok (⟨⟨List.zipWith (fun x (p : F × F) => Com1.linearMap x + (scalarMul u0 p.1 + scalarMul u1 p.2)) x R, R.map fun p => [p.1, p.2]⟩, ⟨List.zipWith (fun x s => scalarMul (v1 + ⟨0, crs.g2_gen⟩) x + scalarMul v0 s) y S, vecToColVec S⟩, [pf]⟩, rng') ∧
      (∀ {T : Type} [AddCommGroup T] [SMul F T] {t : G1 → T}, Projects F t → (∀ a : F, a • (0 : T) = 0) → (∀ w ∈ x, t w = 0) →
        (∀ c ∈ crs.u, t c.c0 = 0 ∧ t c.c1 = 0) → pf.theta.map (Com.on t) =
          [⟨0, (List.zipWith (fun a s => s • t a) equ.a_consts S).sum⟩]) := by
  have hm := List.length_pos_iff.mpr hx
  have hn := List.length_pos_iff.mpr hy
  have hrun : ∀ r s k, batchCommitG1 (F := F) x crs rng = .ok (r, s) → batchCommitScalarToB2 y crs s = .ok k →
      equ.commitAndProveRaw sch x y crs rng = (do
        let (pf, rng) ← equ.proveRaw sch x y r k.1 crs k.2
        pure (⟨r, k.1, [pf]⟩, rng)) := by
    intro r s k h1 h2
    unfold MSMEG1.commitAndProveRaw
    rw [h1, ok_bind]
    dsimp only
    rw [h2, ok_bind]
  rw [hrun _ _ _ (batchCommitG1_closed hx hu rng) (batchCommitScalarToB2_closed hy hv _), msmeg1_proveRaw_eq]
  clear hrun
  dsimp only
  obtain ⟨m, hxm⟩ : ∃ m, x.length = m := ⟨_, rfl⟩
  obtain ⟨n, hyn⟩ : ∃ n, y.length = n := ⟨_, rfl⟩
  rw [hxm] at hm hd ⊢
  rw [hyn] at hn hd ⊢
  generalize (drawPairs (Rng.randF (F := F) G1 G2) m rng).2 = s1
  obtain ⟨R, hR⟩ := exists_ofFn (drawPairs (Rng.randF (F := F) G1 G2) m rng).1 (drawPairs_length _ _ _)
  generalize (GS.drawF (Rng.randF (F := F) G1 G2) n s1).2 = s2
  obtain ⟨S, hS⟩ := exists_ofFn (GS.drawF (Rng.randF (F := F) G1 G2) n s1).1 (drawF_len _ _ _)
  rw [hR, hS]
  obtain ⟨a, ha⟩ := exists_ofFn equ.a_consts hd.a
  obtain ⟨b, hb⟩ := exists_ofFn equ.b_consts hd.b
  obtain ⟨γ, hγ⟩ := rect_iff.mp (⟨hd.rows, hd.cols⟩ : Rect _ _ equ.gamma)
  obtain ⟨x', hx'⟩ := exists_ofFn x hxm
  obtain ⟨y', hy'⟩ := exists_ofFn y hyn
  have ofFn2 : ∀ {α : Type} (u0 u1 : α), [u0, u1] = List.ofFn ![u0, u1] := fun _ _ => by simp [List.ofFn_succ]
  have lin1 : ∀ {n : Nat} (x : Fin n → G1), Com1.batchLinearMap (List.ofFn x) = List.ofFn fun i => ⟨0, x i⟩ := fun x => by
    rw [Com1.batchLinearMap, List.map_ofFn]; rfl
  have lin2 : ∀ {n : Nat} (x : Fin n → F), collect (fun x => scalarLinearMap2 x crs) (List.ofFn x) =
      .ok (List.ofFn fun i => scalarMul (v1 + ⟨0, crs.g2_gen⟩) (x i)) := fun x =>
    collect_ofFn (g := fun i => scalarMul (v1 + ⟨0, crs.g2_gen⟩) (x i)) (fun i => by simp [scalarLinearMap2, hv, idx])
  have hk : (do pure [[← idx crs.v 0]] : Res (Matrix (Com G2))) = .ok (vecToColVec (List.ofFn fun _ : Fin 1 => v0)) := by
    simp [hv, vecToColVec]
  have m12 : ∀ a b : F, [[a, b]] = matOf (fun (_ : Fin 1) => ![a, b]) := fun _ _ => by simp [matOf, List.ofFn_succ]
  have ex : Com1.batchLinearMap x = List.ofFn fun i => ⟨0, x' i⟩ := by rw [hx', lin1]
  have ey : collect (fun x => scalarLinearMap2 x crs) y = .ok (List.ofFn fun i => scalarMul (v1 + ⟨0, crs.g2_gen⟩) (y' i)) := by rw [hy', lin2]
  rw [ex, ey, hk, map_pair_ofFn, vecToColVec_ofFn S, m12, hγ, ha, hb, lin1, lin2, hu, ofFn2 u0 u1]
  obtain ⟨c, d, c', pf, h, -, hth⟩ := proveCoreRaw_matOf sch .MultiScalarG1 hm hn (by decide) (by decide)
    (fun i (k : Fin 2) => if k = 0 then (R i).1 else (R i).2) (fun i (_ : Fin 1) => S i) γ
    (fun _ => ![(d1 F G1 G2 s2).1, (d1 F G1 G2 (d1 F G1 G2 s2).2).1])
    (fun i => scalarMul (v1 + ⟨0, crs.g2_gen⟩) (b i)) (fun i => scalarMul (v1 + ⟨0, crs.g2_gen⟩) (y' i)) (fun _ => v0)
    (fun i => (⟨0, a i⟩ : Com G1)) (fun i => ⟨0, x' i⟩) ![u0, u1] (d1 F G1 G2 (d1 F G1 G2 s2).2).2
  refine ⟨List.ofFn R, List.ofFn S, pf, (d1 F G1 G2 (d1 F G1 G2 s2).2).2, by simp, by simp, ?_, ?_⟩
  · exact (congrArg (fun r => r >>= _) h).trans (by rw [ok_bind, map_pair_ofFn, vecToColVec_ofFn S]; rfl)
  · intro T _ _ t ht hz h0 hk0
    have h1 : ∀ i, t (x' i) = 0 := fun i => h0 _ (by rw [hx', List.mem_ofFn]; exact ⟨i, rfl⟩)
    have hk1 : ∀ i : Fin 2, t (![u0, u1] i).c0 = 0 ∧ t (![u0, u1] i).c1 = 0 := by
      rw [← ofFn2] at hk0
      intro i
      fin_cases i
      · exact hk0 u0 (by simp)
      · exact hk0 u1 (by simp)
    rw [hth]
    simp only [List.map_ofFn, Function.comp_def, pi_on ht hz _ _ _ _ _ _ h1 hk1, zipWith_ofFn, List.sum_ofFn]
    simp

/-- A run of `commit_and_prove` for a MSMEG2. -/
theorem msmeg2_run (sch : Nat → Scheduler) (equ : MSMEG2 F G2) {x : List F} {y : List G2} {crs : CRS G1 G2 GT} (rng : ρ)
    (hx : x ≠ []) (hy : y ≠ []) (hd : equ.Dims x.length y.length) {u0 u1 : Com G1} {v0 v1 : Com G2}
    (hu : crs.u = [u0, u1]) (hv : crs.v = [v0, v1]) :
    ∃ (R : List F) (S : List (F × F)) (pf : EquProof F G1 G2) (rng' : ρ), R.length = x.length ∧ S.length = y.length ∧
      equ.commitAndProveRaw sch x y crs rng = .ok (⟨⟨List.zipWith (fun x s => scalarMul (u1 + ⟨0, crs.g1_gen⟩) x + scalarMul u0 s) x R, vecToColVec R⟩, ⟨List.zipWith (fun x (p : F × F) => Com2.linearMap x + (scalarMul v0 p.1 + scalarMul v1 p.2)) y S, S.map fun p => [p.1, p.2]⟩, [pf]⟩, rng') ∧
      (∀ {T : Type} [AddCommGroup T] [SMul F T] {t : G2 → T}, Projects F t → (∀ a : F, a • (0 : T) = 0) → (∀ w ∈ y, t w = 0) →
        (∀ c ∈ crs.v, t c.c0 = 0 ∧ t c.c1 = 0) → pf.pi.map (Com.on t) =
          [⟨0, (List.zipWith (fun a s => s • t a) equ.b_consts R).sum⟩]) := by
  have hm := List.length_pos_iff.mpr hx
  have hn := List.length_pos_iff.mpr hy
  have hrun : ∀ r s k, batchCommitScalarToB1 x crs rng = .ok (r, s) → batchCommitG2 (F := F) y crs s = .ok k →
      equ.commitAndProveRaw sch x y crs rng = (do
        let (pf, rng) ← equ.proveRaw sch x y r k.1 crs k.2
        pure (⟨r, k.1, [pf]⟩, rng)) := by
    intro r s k h1 h2
    unfold MSMEG2.commitAndProveRaw
    rw [h1, ok_bind]
    dsimp only
    rw [h2, ok_bind]
  rw [hrun _ _ _ (batchCommitScalarToB1_closed hx hu rng) (batchCommitG2_closed hy hv _), msmeg2_proveRaw_eq]
  clear hrun
  dsimp only
  obtain ⟨m, hxm⟩ : ∃ m, x.length = m := ⟨_, rfl⟩
  obtain ⟨n, hyn⟩ : ∃ n, y.length = n := ⟨_, rfl⟩
  rw [hxm] at hm hd ⊢
  rw [hyn] at hn hd ⊢
  generalize (GS.drawF (Rng.randF (F := F) G1 G2) m rng).2 = s1
  obtain ⟨R, hR⟩ := exists_ofFn (GS.drawF (Rng.randF (F := F) G1 G2) m rng).1 (drawF_len _ _ _)
  generalize (drawPairs (Rng.randF (F := F) G1 G2) n s1).2 = s2
  obtain ⟨S, hS⟩ := exists_ofFn (drawPairs (Rng.randF (F := F) G1 G2) n s1).1 (drawPairs_length _ _ _)
  rw [hR, hS]
  obtain ⟨a, ha⟩ := exists_ofFn equ.a_consts hd.a
  obtain ⟨b, hb⟩ := exists_ofFn equ.b_consts hd.b
  obtain ⟨γ, hγ⟩ := rect_iff.mp (⟨hd.rows, hd.cols⟩ : Rect _ _ equ.gamma)
  obtain ⟨x', hx'⟩ := exists_ofFn x hxm
  obtain ⟨y', hy'⟩ := exists_ofFn y hyn
  have ofFn2 : ∀ {α : Type} (u0 u1 : α), [u0, u1] = List.ofFn ![u0, u1] := fun _ _ => by simp [List.ofFn_succ]
  have lin2 : ∀ {n : Nat} (x : Fin n → G2), Com2.batchLinearMap (List.ofFn x) = List.ofFn fun i => ⟨0, x i⟩ := fun x => by
    rw [Com2.batchLinearMap, List.map_ofFn]; rfl
  have lin1 : ∀ {n : Nat} (x : Fin n → F), collect (fun x => scalarLinearMap1 x crs) (List.ofFn x) =
      .ok (List.ofFn fun i => scalarMul (u1 + ⟨0, crs.g1_gen⟩) (x i)) := fun x =>
    collect_ofFn (g := fun i => scalarMul (u1 + ⟨0, crs.g1_gen⟩) (x i)) (fun i => by simp [scalarLinearMap1, hu, idx])
  have hk : (do pure [[← idx crs.u 0]] : Res (Matrix (Com G1))) = .ok (vecToColVec (List.ofFn fun _ : Fin 1 => u0)) := by
    simp [hu, vecToColVec]
  have m21 : ∀ a b : F, [[a], [b]] = matOf (fun (i : Fin 2) (_ : Fin 1) => ![a, b] i) := fun _ _ => by simp [matOf, List.ofFn_succ]
  have ex : collect (fun x => scalarLinearMap1 x crs) x = .ok (List.ofFn fun i => scalarMul (u1 + ⟨0, crs.g1_gen⟩) (x' i)) := by rw [hx', lin1]
  have ey : Com2.batchLinearMap y = List.ofFn fun i => ⟨0, y' i⟩ := by rw [hy', lin2]
  rw [ex, ey, hk, map_pair_ofFn, vecToColVec_ofFn R, m21, hγ, ha, hb, lin1, lin2, hv, ofFn2 v0 v1]
  obtain ⟨c, d, c', pf, h, hth, -⟩ := proveCoreRaw_matOf sch .MultiScalarG2 hm hn (by decide) (by decide)
    (fun i (_ : Fin 1) => R i) (fun i (k : Fin 2) => if k = 0 then (S i).1 else (S i).2) γ
    (fun i _ => ![(d1 F G1 G2 s2).1, (d1 F G1 G2 (d1 F G1 G2 s2).2).1] i)
    (fun i => (⟨0, b i⟩ : Com G2)) (fun i => ⟨0, y' i⟩) ![v0, v1]
    (fun i => scalarMul (u1 + ⟨0, crs.g1_gen⟩) (a i)) (fun i => scalarMul (u1 + ⟨0, crs.g1_gen⟩) (x' i)) (fun _ => u0)
    (d1 F G1 G2 (d1 F G1 G2 s2).2).2
  refine ⟨List.ofFn R, List.ofFn S, pf, (d1 F G1 G2 (d1 F G1 G2 s2).2).2, by simp, by simp, ?_, ?_⟩
  · exact (congrArg (fun r => r >>= _) h).trans (by rw [ok_bind, map_pair_ofFn, vecToColVec_ofFn R]; rfl)
  · intro T _ _ t ht hz h0 hk0
    have h1 : ∀ i, t (y' i) = 0 := fun i => h0 _ (by rw [hy', List.mem_ofFn]; exact ⟨i, rfl⟩)
    have hk1 : ∀ i : Fin 2, t (![v0, v1] i).c0 = 0 ∧ t (![v0, v1] i).c1 = 0 := by
      rw [← ofFn2] at hk0
      intro i
      fin_cases i
      · exact hk0 v0 (by simp)
      · exact hk0 v1 (by simp)
    rw [hth]
    simp only [List.map_ofFn, Function.comp_def, pi_on ht hz _ _ _ _ _ _ h1 hk1, zipWith_ofFn, List.sum_ofFn]
    simp

end Raw

section leaks
variable {T : Type} [AddCommGroup T] [SMul F T] (hz : ∀ a : F, a • (0 : T) = 0)
include hz

/-- C106, constants of multi-scalar multiplication equations: the proof shows the parts of the constants outside the subgroup, multiplied by the randomness of the commitments to the scalars. -/
theorem C106_scalar_equation_leaks (sch : Nat → Scheduler) (crs : CRS G1 G2 GT) (rng : ρ) (hu : crs.u.length = 2) (hv : crs.v.length = 2) :
    (∀ (equ : MSMEG1 F G1) (x : List G1) (y : List F), x ≠ [] → y ≠ [] → equ.Dims x.length y.length →
      ∃ (s : List F) (cp : CProof F G1 G2) (rng' : ρ) (pf : EquProof F G1 G2), equ.commitAndProveRaw sch x y crs rng = .ok (cp, rng') ∧
        cp.equ_proofs = [pf] ∧ cp.ycoms.rand = s.map (fun a => [a]) ∧ s.length = y.length ∧
        ∀ t : G1 → T, Projects F t → (∀ x' ∈ x, t x' = 0) → (∀ c ∈ crs.u, t c.c0 = 0 ∧ t c.c1 = 0) →
          pf.theta.map (Com.on t) = [⟨0, (List.zipWith (fun a s => s • t a) equ.a_consts s).sum⟩]) ∧
    (∀ (equ : MSMEG2 F G2) (x : List F) (y : List G2), x ≠ [] → y ≠ [] → equ.Dims x.length y.length →
      ∃ (r : List F) (cp : CProof F G1 G2) (rng' : ρ) (pf : EquProof F G1 G2), equ.commitAndProveRaw sch x y crs rng = .ok (cp, rng') ∧
        cp.equ_proofs = [pf] ∧ cp.xcoms.rand = r.map (fun a => [a]) ∧ r.length = x.length ∧
        ∀ t : G2 → T, Projects F t → (∀ y' ∈ y, t y' = 0) → (∀ c ∈ crs.v, t c.c0 = 0 ∧ t c.c1 = 0) →
          pf.pi.map (Com.on t) = [⟨0, (List.zipWith (fun b r => r • t b) equ.b_consts r).sum⟩]) := by
  obtain ⟨u0, u1, hu⟩ := List.length_eq_two.mp hu
  obtain ⟨v0, v1, hv⟩ := List.length_eq_two.mp hv
  constructor
  · intro equ x y hx hy hd
    obtain ⟨R, S, pf, rng', -, hl, hrun, hth⟩ := Raw.msmeg1_run sch equ rng hx hy hd hu hv
    exact ⟨S, _, rng', pf, hrun, rfl, rfl, hl, fun t ht h0 h0' => hth ht hz h0 h0'⟩
  · intro equ x y hx hy hd
    obtain ⟨R, S, pf, rng', hl, -, hrun, hth⟩ := Raw.msmeg2_run sch equ rng hx hy hd hu hv
    exact ⟨R, _, rng', pf, hrun, rfl, rfl, hl, fun t ht h0 h0' => hth ht hz h0 h0'⟩

/-- C106, secret scalars: suppose only the `i`-th constant of a multi-scalar multiplication equation of the first group has a part outside the subgroup, and its multiples by different scalars are different.
Then what `commit_and_prove` publishes determines the `i`-th scalar, on every CRS in the subgroup on which multiples of the image of one differ. -/
theorem C106_scalar_secret_leaks (t : G1 → T) (ht : Projects F t) (equ : MSMEG1 F G1) (crs : CRS G1 G2 GT) (hu : crs.u.length = 2)
    (hv : crs.v.length = 2) (hk0 : ∀ c ∈ crs.u, t c.c0 = 0 ∧ t c.c1 = 0)
    (hone : ∀ k k' : F, (Raw.scalarLinearMap2 k crs : Res (Com G2)) = Raw.scalarLinearMap2 k' crs → k = k') (i : Nat) (a : G1)
    (ha : equ.a_consts[i]? = some a)
    (hinj : ∀ k k' : F, k • t a = k' • t a → k = k') (h0 : ∀ j a', j ≠ i → equ.a_consts[j]? = some a' → t a' = 0)
    (x x' : List G1) (y y' : List F) (sch sch' : Nat → Scheduler) (rng rng' : ρ)
    (hx : x ≠ []) (hy : y ≠ []) (hd : equ.Dims x.length y.length) (hx0 : ∀ w ∈ x, t w = 0)
    (hx' : x' ≠ []) (hy' : y' ≠ []) (hd' : equ.Dims x'.length y'.length) (hx0' : ∀ w ∈ x', t w = 0)
    (cp cp' : CProof F G1 G2) (s s' : ρ) (hrun : equ.commitAndProveRaw sch x y crs rng = .ok (cp, s))
    (hrun' : equ.commitAndProveRaw sch' x' y' crs rng' = .ok (cp', s')) (hpub : cp.publicPart = cp'.publicPart) : y[i]? = y'[i]? := by
  obtain ⟨u0, u1, hu⟩ := List.length_eq_two.mp hu
  obtain ⟨v0, v1, hv⟩ := List.length_eq_two.mp hv
  obtain ⟨R, S, pf, r, -, hS, hr, hth⟩ := Raw.msmeg1_run sch equ rng hx hy hd hu hv
  obtain ⟨R', S', pf', r', -, hS', hr', hth'⟩ := Raw.msmeg1_run sch' equ rng' hx' hy' hd' hu hv
  have hth := hth ht hz hx0 hk0
  have hth' := hth' ht hz hx0' hk0
  rw [hrun] at hr
  rw [hrun'] at hr'
  cases hr
  cases hr'
  simp only [CProof.publicPart, List.map_cons, List.map_nil, Prod.mk.injEq, List.cons.injEq, and_true] at hpub
  obtain ⟨-, hc, -, hp, -⟩ := hpub
  rw [hp, hth'] at hth
  simp only [List.cons.injEq, Com.mk.injEq, true_and, and_true] at hth
  have hi : i < equ.a_consts.length := (List.getElem?_eq_some_iff.mp ha).1
  have hiS : i < S.length := by rw [hS, ← hd.a]; exact hi
  have hiS' : i < S'.length := by rw [hS', ← hd'.a]; exact hi
  have e : ∀ (S : List F) (hi : i < S.length), (List.zipWith (fun a s => s • t a) equ.a_consts S).sum = S[i] • t a := by
    intro S hi
    have := Raw.zip_sum_single (t := t) hz Prod.fst a (S[i], S[i]) equ.a_consts (S.map fun s => (s, s)) i ha (by simp [hi]) h0
    rw [List.zipWith_map_right] at this
    exact this
  have q := hinj _ _ (((e S' hiS').symm.trans hth).trans (e S hiS))
  have hiy : i < y.length := hS ▸ hiS
  have hiy' : i < y'.length := hS' ▸ hiS'
  have hci := congrArg (·[i]?) hc
  simp only [List.getElem?_zipWith, List.getElem?_eq_getElem hiS, List.getElem?_eq_getElem hiS', List.getElem?_eq_getElem hiy,
    List.getElem?_eq_getElem hiy', q, Option.some.injEq] at hci
  rw [List.getElem?_eq_getElem hiy, List.getElem?_eq_getElem hiy']
  refine congrArg some (hone _ _ ?_)
  simpa [Raw.scalarLinearMap2, hv, idx] using add_right_cancel hci

/-- C106, secret scalars: the same for equations of the second group. -/
theorem C106_scalar_secret_leaks_second (t : G2 → T) (ht : Projects F t) (equ : MSMEG2 F G2) (crs : CRS G1 G2 GT) (hu : crs.u.length = 2)
    (hv : crs.v.length = 2) (hk0 : ∀ c ∈ crs.v, t c.c0 = 0 ∧ t c.c1 = 0)
    (hone : ∀ k k' : F, (Raw.scalarLinearMap1 k crs : Res (Com G1)) = Raw.scalarLinearMap1 k' crs → k = k') (i : Nat) (a : G2)
    (ha : equ.b_consts[i]? = some a)
    (hinj : ∀ k k' : F, k • t a = k' • t a → k = k') (h0 : ∀ j a', j ≠ i → equ.b_consts[j]? = some a' → t a' = 0)
    (x x' : List F) (y y' : List G2) (sch sch' : Nat → Scheduler) (rng rng' : ρ)
    (hx : x ≠ []) (hy : y ≠ []) (hd : equ.Dims x.length y.length) (hy0 : ∀ w ∈ y, t w = 0)
    (hx' : x' ≠ []) (hy' : y' ≠ []) (hd' : equ.Dims x'.length y'.length) (hy0' : ∀ w ∈ y', t w = 0)
    (cp cp' : CProof F G1 G2) (s s' : ρ) (hrun : equ.commitAndProveRaw sch x y crs rng = .ok (cp, s))
    (hrun' : equ.commitAndProveRaw sch' x' y' crs rng' = .ok (cp', s')) (hpub : cp.publicPart = cp'.publicPart) : x[i]? = x'[i]? := by
  obtain ⟨u0, u1, hu⟩ := List.length_eq_two.mp hu
  obtain ⟨v0, v1, hv⟩ := List.length_eq_two.mp hv
  obtain ⟨S, S0, pf, r, hS, -, hr, hth⟩ := Raw.msmeg2_run sch equ rng hx hy hd hu hv
  obtain ⟨S', S0', pf', r', hS', -, hr', hth'⟩ := Raw.msmeg2_run sch' equ rng' hx' hy' hd' hu hv
  have hth := hth ht hz hy0 hk0
  have hth' := hth' ht hz hy0' hk0
  rw [hrun] at hr
  rw [hrun'] at hr'
  cases hr
  cases hr'
  simp only [CProof.publicPart, List.map_cons, List.map_nil, Prod.mk.injEq, List.cons.injEq, and_true] at hpub
  obtain ⟨hc, -, hp, -⟩ := hpub
  rw [hp, hth'] at hth
  simp only [List.cons.injEq, Com.mk.injEq, true_and, and_true] at hth
  have hi : i < equ.b_consts.length := (List.getElem?_eq_some_iff.mp ha).1
  have hiS : i < S.length := by rw [hS, ← hd.b]; exact hi
  have hiS' : i < S'.length := by rw [hS', ← hd'.b]; exact hi
  have e : ∀ (S : List F) (hi : i < S.length), (List.zipWith (fun a s => s • t a) equ.b_consts S).sum = S[i] • t a := by
    intro S hi
    have := Raw.zip_sum_single (t := t) hz Prod.fst a (S[i], S[i]) equ.b_consts (S.map fun s => (s, s)) i ha (by simp [hi]) h0
    rw [List.zipWith_map_right] at this
    exact this
  have q := hinj _ _ (((e S' hiS').symm.trans hth).trans (e S hiS))
  have hiy : i < x.length := hS ▸ hiS
  have hiy' : i < x'.length := hS' ▸ hiS'
  have hci := congrArg (·[i]?) hc
  simp only [List.getElem?_zipWith, List.getElem?_eq_getElem hiS, List.getElem?_eq_getElem hiS', List.getElem?_eq_getElem hiy,
    List.getElem?_eq_getElem hiy', q, Option.some.injEq] at hci
  rw [List.getElem?_eq_getElem hiy, List.getElem?_eq_getElem hiy']
  refine congrArg some (hone _ _ ?_)
  simpa [Raw.scalarLinearMap1, hu, idx] using add_right_cancel hci

end leaks

namespace Ex

/-- Equations of multi-scalar multiplication whose only constant point has a part of order 11. -/
def msm77 : MSMEG1 K P77 := ⟨[⟨5, 1⟩], [1], [[1]], ⟨1, 0⟩⟩
def msm77' : MSMEG2 K P77 := ⟨[1], [⟨5, 1⟩], [[1]], ⟨1, 0⟩⟩

theorem sim77_one (k k' : K) (h : (Raw.scalarLinearMap2 k (sim7.on j77 id) : Res (Com K)) = Raw.scalarLinearMap2 k' (sim7.on j77 id)) : k = k' := by
  revert k k'
  decide

theorem sim77_one' (k k' : K) (h : (Raw.scalarLinearMap1 k (sim7.on id j77) : Res (Com K)) = Raw.scalarLinearMap1 k' (sim7.on id j77)) : k = k' := by
  revert k k'
  decide

/-- The message tells the scalars apart, on a simulated CRS. -/
example (sch sch' : Nat → Scheduler) (rng rng' : Nat) (y y' : K) (h : y ≠ y') (cp cp' : CProof K P77 K) (s s' : Nat)
    (hr : msm77.commitAndProveRaw sch [j77 2] [y] (sim7.on j77 id) rng = .ok (cp, s))
    (hr' : msm77.commitAndProveRaw sch' [j77 3] [y'] (sim7.on j77 id) rng' = .ok (cp', s')) : cp.publicPart ≠ cp'.publicPart := by
  intro hp
  have hd : msm77.Dims 1 1 := by constructor <;> simp [msm77]
  have := C106_scalar_secret_leaks t11_zero t77 t77_projects msm77 (sim7.on j77 id) rfl rfl sim77_u sim77_one 0 ⟨5, 1⟩ rfl t11_inj
    (fun j b hj hb => by
      cases j with
      | zero => exact absurd rfl hj
      | succ j => simp [msm77] at hb)
    [j77 2] [j77 3] [y] [y'] sch sch' rng rng' (by simp) (by simp) hd (by simp [j77, t77]; rfl) (by simp) (by simp) hd
    (by simp [j77, t77]; rfl) cp cp' s s' hr hr' hp
  simp only [List.getElem?_cons_zero, Option.some.injEq] at this
  exact h this

example (sch sch' : Nat → Scheduler) (rng rng' : Nat) (x x' : K) (h : x ≠ x') (cp cp' : CProof K K P77) (s s' : Nat)
    (hr : msm77'.commitAndProveRaw sch [x] [j77 2] (sim7.on id j77) rng = .ok (cp, s))
    (hr' : msm77'.commitAndProveRaw sch' [x'] [j77 3] (sim7.on id j77) rng' = .ok (cp', s')) : cp.publicPart ≠ cp'.publicPart := by
  intro hp
  have hd : msm77'.Dims 1 1 := by constructor <;> simp [msm77']
  have := C106_scalar_secret_leaks_second t11_zero t77 t77_projects msm77' (sim7.on id j77) rfl rfl sim77_v sim77_one' 0 ⟨5, 1⟩ rfl t11_inj
    (fun j b hj hb => by
      cases j with
      | zero => exact absurd rfl hj
      | succ j => simp [msm77'] at hb)
    [x] [x'] [j77 2] [j77 3] sch sch' rng rng' (by simp) (by simp) hd (by simp [j77, t77]; rfl) (by simp) (by simp) hd
    (by simp [j77, t77]; rfl) cp cp' s s' hr hr' hp
  simp only [List.getElem?_cons_zero, Option.some.injEq] at this
  exact h this

/-- The messages are made, and show the part of order 11 of the constant multiplied by the randomness. -/
example (sch : Nat → Scheduler) (rng : Nat) (y : K) : ∃ (s : List K) (cp : CProof K P77 K) (s' : Nat) (pf : EquProof K P77 K),
    msm77.commitAndProveRaw sch [j77 2] [y] (sim7.on j77 id) rng = .ok (cp, s') ∧ cp.equ_proofs = [pf] ∧ cp.ycoms.rand = s.map (fun a => [a]) ∧
      s.length = 1 ∧ pf.theta.map (Com.on t77) = [⟨0, (List.zipWith (fun a s => s • t77 a) msm77.a_consts s).sum⟩] := by
  obtain ⟨s, cp, s', pf, h1, h2, h3, h4, h5⟩ := (C106_scalar_equation_leaks (F := K) t11_zero sch (sim7.on j77 id) rng rfl rfl).1 msm77 [j77 2] [y]
    (by simp) (by simp) (by constructor <;> simp [msm77])
  exact ⟨s, cp, s', pf, h1, h2, h3, h4, h5 t77 t77_projects (by simp [j77, t77]; rfl) sim77_u⟩

example (sch : Nat → Scheduler) (rng : Nat) (x : K) : ∃ (r : List K) (cp : CProof K K P77) (s' : Nat) (pf : EquProof K K P77),
    msm77'.commitAndProveRaw sch [x] [j77 2] (sim7.on id j77) rng = .ok (cp, s') ∧ cp.equ_proofs = [pf] ∧ cp.xcoms.rand = r.map (fun a => [a]) ∧
      r.length = 1 ∧ pf.pi.map (Com.on t77) = [⟨0, (List.zipWith (fun b r => r • t77 b) msm77'.b_consts r).sum⟩] := by
  obtain ⟨r, cp, s', pf, h1, h2, h3, h4, h5⟩ := (C106_scalar_equation_leaks (F := K) t11_zero sch (sim7.on id j77) rng rfl rfl).2 msm77' [x] [j77 2]
    (by simp) (by simp) (by constructor <;> simp [msm77'])
  exact ⟨r, cp, s', pf, h1, h2, h3, h4, h5 t77 t77_projects (by simp [j77, t77]; rfl) sim77_v⟩

end Ex

end GS
