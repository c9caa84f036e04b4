import Verif.Spec.Raw
import Verif.Model.Verify

/-! # The verifier on unchecked points and its image under the projections -/

set_option linter.unusedSectionVars false

namespace GS.Raw
variable {F G H G1 G2 GT H1 H2 : Type} [Field F]

theorem map_bind {α β δ : Type} (x : Res α) (h : α → β) (k : β → Res δ) :
    (x.map h >>= k) = x >>= fun a => k (h a) := by
  cases x <;> rfl

theorem bind_map' {α β γ : Type} (x : Res α) (k : α → Res β) (h : β → γ) :
    (x >>= k).map h = x >>= fun a => (k a).map h := by
  cases x <;> rfl

theorem idx_map {α β : Type} (h : α → β) : ∀ (l : List α) (i : Nat), idx (l.map h) i = (idx l i).map h
  | [], _ => rfl
  | _ :: _, 0 => rfl
  | _ :: l, i + 1 => idx_map h l i

theorem idx2_map {α β : Type} (h : α → β) (m : Matrix α) (i j : Nat) :
    idx2 (m.map (List.map h)) i j = (idx2 m i j).map h := by
  unfold idx2
  rw [idx_map, map_bind, bind_map']
  congr 1
  funext r
  exact idx_map h r j

theorem firstRowLen_map {α β : Type} (h : α → β) (m : Matrix α) : firstRowLen (m.map (List.map h)) = firstRowLen m := by
  cases m with
  | nil => rfl
  | cons r m => simp [firstRowLen, idx]

theorem isEmptyMat_map {α β : Type} (h : α → β) (m : Matrix α) : isEmptyMat (m.map (List.map h)) = isEmptyMat m := by
  cases m with
  | nil => rfl
  | cons r m => simp [isEmptyMat]

theorem collect_map' {α β γ : Type} (h : β → γ) (g : α → Res β) : ∀ l : List α,
    collect (fun a => (g a).map h) l = (collect g l).map (List.map h)
  | [] => rfl
  | a :: l => by
    unfold collect
    rw [collect_map' h g l]
    cases g a with
    | error p => rfl
    | ok b => cases collect g l <;> rfl

/-- Slots after the results are mapped. -/
theorem runTasks_map {β γ : Type} (h : β → γ) (g : Nat → Nat → Res β) : ∀ (order : List (Nat × Nat)) (s : Slots β),
    runTasks (fun i j => (g i j).map h) order (fun p => (s p).map h) =
      (runTasks g order s).map fun s p => (s p).map h
  | [], s => rfl
  | p :: order, s => by
    have ih := runTasks_map h g order
    unfold runTasks at ih ⊢
    unfold foldRes
    cases hb : g p.1 p.2 with
    | error q => simp only [hb]; rfl
    | ok b =>
      have hw : (fun q => ((Slots.write s p b) q).map h) = Slots.write (fun q => (s q).map h) p (h b) := by
        funext q
        unfold Slots.write
        split <;> rfl
      have := ih (Slots.write s p b)
      rw [hw] at this
      simp only [hb]
      exact this

theorem parGrid_map {β γ : Type} (h : β → γ) (sch : Scheduler) (m n : Nat) (g : Nat → Nat → Res β) :
    parGrid sch m n (fun i j => (g i j).map h) = (parGrid sch m n g).map (List.map (List.map h)) := by
  have hr := runTasks_map h g (sch.order m n) (fun _ => none)
  unfold parGrid
  have h0 : (fun p : Nat × Nat => (((fun _ => none) : Slots β) p).map h) = fun _ => none := rfl
  rw [h0] at hr
  rw [hr, map_bind, bind_map']
  congr 1
  funext s
  rw [← collect_map']
  congr 1
  funext i
  rw [← collect_map']
  congr 1
  funext j
  unfold Slots.read
  cases hs : s (i, j) <;> simp [hs] <;> rfl

theorem colVecToVec_map {α β : Type} (h : α → β) (m : Matrix α) :
    colVecToVec (m.map (List.map h)) = (colVecToVec m).map (List.map h) := by
  unfold colVecToVec
  rw [List.length_map]
  split
  · exact idx_map (List.map h) m 0
  · rw [← collect_map']
    induction m with
    | nil => rfl
    | cons r m ih =>
      rename_i hl
      have key : ∀ l : Matrix α, collect (fun v => idx v 0) (l.map (List.map h)) = collect (fun v => (idx v 0).map h) l := by
        intro l
        induction l with
        | nil => rfl
        | cons r l ih => simp only [List.map_cons, collect, idx_map, ih]
      exact key (r :: m)

theorem vecToColVec_map {α β : Type} (h : α → β) (l : List α) :
    vecToColVec (l.map h) = (vecToColVec l).map (List.map h) := by
  simp [vecToColVec, List.map_map, Function.comp_def]

section Group
variable [AddCommGroup G] [SMul F G] [AddCommGroup H] [Module F H] {f : G → H}

theorem proj_zero (hf : Projects F f) : f 0 = 0 := by
  have h := hf.add 0 0
  rw [add_zero] at h
  exact left_eq_add.mp h

theorem on_add (hf : Projects F f) (a b : Com G) : (a + b).on f = a.on f + b.on f := by
  show (⟨f (a.c0 + b.c0), f (a.c1 + b.c1)⟩ : Com H) = ⟨f a.c0 + f b.c0, f a.c1 + f b.c1⟩
  rw [hf.add, hf.add]

theorem on_emb (hf : Projects F f) (x : G) : (⟨0, x⟩ : Com G).on f = ⟨0, f x⟩ := by
  show (⟨f 0, f x⟩ : Com H) = _
  rw [proj_zero hf]

theorem on_scalarMul (hf : Projects F f) (a : Com G) (r : F) : (Raw.scalarMul a r).on f = (a.on f).scalarMul r := by
  show (⟨f (r • a.c0), f (r • a.c1)⟩ : Com H) = ⟨r • f a.c0, r • f a.c1⟩
  rw [hf.smul, hf.smul]

theorem on_sum (hf : Projects F f) (l : List (Com G)) : (rustSum l).on f = rustSum (l.map (Com.on f)) := by
  have key : ∀ (l : List (Com G)) (a : Com G), (l.foldl (fun a b => a + b) a).on f =
      (l.map (Com.on f)).foldl (fun a b => a + b) (a.on f) := by
    intro l
    induction l with
    | nil => intro a; rfl
    | cons b l ih => intro a; rw [List.foldl_cons, ih, List.map_cons, List.foldl_cons, on_add hf]
  have h0 : (0 : Com G).on f = 0 := by
    show (⟨f 0, f 0⟩ : Com H) = ⟨0, 0⟩
    rw [proj_zero hf]
  unfold rustSum
  rw [key, h0]

theorem leftMul_on (hf : Projects F f) (sch : Scheduler) (M : Matrix (Com G)) (γ : Matrix F) :
    ComMat.leftMul sch (M.map (List.map (Com.on f))) γ true =
      (Raw.leftMul sch M γ).map (List.map (List.map (Com.on f))) := by
  unfold ComMat.leftMul Raw.leftMul
  rw [isEmptyMat_map]
  cases h1 : isEmptyMat γ
  · cases h2 : isEmptyMat M
    · simp only [Bool.false_eq_true, if_false, if_true]
      rw [bind_map', List.length_map, firstRowLen_map]
      congr 1
      funext d
      rw [bind_map']
      congr 1
      funext _
      rw [bind_map']
      congr 1
      funext n
      rw [← parGrid_map]
      congr 1
      funext i j
      rw [bind_map']
      congr 1
      funext row
      rw [bind_map']
      have hc : collect (fun k => do pure ((← idx2 (M.map (List.map (Com.on f))) k j).scalarMul (← idx row k))) (List.range M.length)
          = (collect (fun k => do pure (Raw.scalarMul (← idx2 M k j) (← idx row k))) (List.range M.length)).map
            (List.map (Com.on f)) := by
        rw [← collect_map']
        congr 1
        funext k
        rw [idx2_map]
        cases idx2 M k j with
        | error p => rfl
        | ok c =>
          cases idx row k with
          | error p => rfl
          | ok r => exact congrArg Except.ok (on_scalarMul hf c r).symm
      rw [hc, map_bind]
      congr 1
      funext terms
      exact congrArg Except.ok (on_sum hf terms).symm
    · rfl
  · rfl

end Group

section Pairing
variable [AddCommGroup G1] [SMul F G1] [AddCommGroup G2] [SMul F G2] [AddCommGroup GT] [Module F GT]
  [AddCommGroup H1] [Module F H1] [AddCommGroup H2] [Module F H2] {e' : G1 → G2 → GT} {e : H1 →ₗ[F] H2 →ₗ[F] GT}
  {f1 : G1 → H1} {f2 : G2 → H2}

theorem pairing_on (he : Ignores e' e f1 f2) (x : Com G1) (y : Com G2) :
    Raw.pairing e' x y = ComT.pairing e (x.on f1) (y.on f2) := by
  unfold Raw.pairing ComT.pairing Com.on
  simp only [he _ _]

theorem pairingSum_on (he : Ignores e' e f1 f2) (xs : List (Com G1)) (ys : List (Com G2)) :
    Raw.pairingSum e' xs ys = ComT.pairingSum e (xs.map (Com.on f1)) (ys.map (Com.on f2)) := by
  have he' : e' = fun x y => e (f1 x) (f2 y) := by funext x y; exact he x y
  subst he'
  have key : ∀ (p : Com G1 → G1) (p' : Com H1 → H1) (q : Com G2 → G2) (q' : Com H2 → H2),
      (∀ c, p' (c.on f1) = f1 (p c)) → (∀ c, q' (c.on f2) = f2 (q c)) →
      Raw.multiPairing (fun x y => e (f1 x) (f2 y)) (xs.map p) (ys.map q) =
        ComT.multiPairing e ((xs.map (Com.on f1)).map p') ((ys.map (Com.on f2)).map q') := by
    intro p p' q q' hp hq
    unfold Raw.multiPairing ComT.multiPairing
    simp only [List.zipWith_map_left, List.zipWith_map_right, hp, hq]
  unfold Raw.pairingSum ComT.pairingSum
  rw [List.length_map, List.length_map]
  congr 1
  funext _
  rw [key (fun c => c.c0) (fun c => c.c0) (fun c => c.c0) (fun c => c.c0) (fun _ => rfl) (fun _ => rfl),
    key (fun c => c.c0) (fun c => c.c0) (fun c => c.c1) (fun c => c.c1) (fun _ => rfl) (fun _ => rfl),
    key (fun c => c.c1) (fun c => c.c1) (fun c => c.c0) (fun c => c.c0) (fun _ => rfl) (fun _ => rfl),
    key (fun c => c.c1) (fun c => c.c1) (fun c => c.c1) (fun c => c.c1) (fun _ => rfl) (fun _ => rfl)]

theorem batch1_on (hf : Projects F f1) (l : List G1) :
    (Com1.batchLinearMap l).map (Com.on f1) = Com1.batchLinearMap (l.map f1) := by
  unfold Com1.batchLinearMap Com1.linearMap
  simp only [List.map_map]
  exact List.map_congr_left fun x _ => on_emb hf x

theorem batch2_on (hf : Projects F f2) (l : List G2) :
    (Com2.batchLinearMap l).map (Com.on f2) = Com2.batchLinearMap (l.map f2) := by
  unfold Com2.batchLinearMap Com2.linearMap
  simp only [List.map_map]
  exact List.map_congr_left fun x _ => on_emb hf x

theorem scalar1_on (hf : Projects F f1) (x : F) (key : CRS G1 G2 GT) :
    Com1.scalarLinearMap x (key.on f1 f2) = (Raw.scalarLinearMap1 x key).map (Com.on f1) := by
  unfold Com1.scalarLinearMap Raw.scalarLinearMap1 CRS.on
  rw [idx_map, map_bind, bind_map']
  congr 1
  funext u
  refine congrArg Except.ok ?_
  rw [on_scalarMul hf, on_add hf, on_emb hf]
  rfl

theorem scalar2_on (hf : Projects F f2) (y : F) (key : CRS G1 G2 GT) :
    Com2.scalarLinearMap y (key.on f1 f2) = (Raw.scalarLinearMap2 y key).map (Com.on f2) := by
  unfold Com2.scalarLinearMap Raw.scalarLinearMap2 CRS.on
  rw [idx_map, map_bind, bind_map']
  congr 1
  funext u
  refine congrArg Except.ok ?_
  rw [on_scalarMul hf, on_add hf, on_emb hf]
  rfl

theorem batchScalar1_on (hf : Projects F f1) (l : List F) (key : CRS G1 G2 GT) :
    Com1.batchScalarLinearMap l (key.on f1 f2) =
      (collect (fun x => Raw.scalarLinearMap1 x key) l).map (List.map (Com.on f1)) := by
  unfold Com1.batchScalarLinearMap
  rw [← collect_map']
  congr 1
  funext x
  exact scalar1_on hf x key

theorem batchScalar2_on (hf : Projects F f2) (l : List F) (key : CRS G1 G2 GT) :
    Com2.batchScalarLinearMap l (key.on f1 f2) =
      (collect (fun x => Raw.scalarLinearMap2 x key) l).map (List.map (Com.on f2)) := by
  unfold Com2.batchScalarLinearMap
  rw [← collect_map']
  congr 1
  funext x
  exact scalar2_on hf x key

theorem target1_on (he : Ignores e' e f1 f2) (h1 : Projects F f1) (h2 : Projects F f2) (z : G1) (key : CRS G1 G2 GT) :
    ComT.linearMapMSMEG1 e (f1 z) (key.on f1 f2) = Raw.linearMapMSMEG1 F e' z key := by
  unfold ComT.linearMapMSMEG1 Raw.linearMapMSMEG1
  rw [scalar2_on h2, map_bind]
  congr 1
  funext c
  rw [pairing_on he, on_emb h1]
  rfl

theorem target2_on (he : Ignores e' e f1 f2) (h1 : Projects F f1) (h2 : Projects F f2) (z : G2) (key : CRS G1 G2 GT) :
    ComT.linearMapMSMEG2 e (f2 z) (key.on f1 f2) = Raw.linearMapMSMEG2 F e' z key := by
  unfold ComT.linearMapMSMEG2 Raw.linearMapMSMEG2
  rw [scalar1_on h1, map_bind]
  congr 1
  funext c
  rw [pairing_on he, on_emb h2]
  rfl

theorem targetQuad_on (he : Ignores e' e f1 f2) (h1 : Projects F f1) (h2 : Projects F f2) (z : F) (key : CRS G1 G2 GT) :
    ComT.linearMapQuad e z (key.on f1 f2) = Raw.linearMapQuad e' z key := by
  unfold ComT.linearMapQuad Raw.linearMapQuad
  rw [scalar1_on h1, map_bind]
  congr 1
  funext c
  rw [scalar2_on h2, map_bind]
  congr 1
  funext d
  rw [pairing_on he, on_scalarMul h2]

end Pairing
end GS.Raw
