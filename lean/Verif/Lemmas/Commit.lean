import Verif.Model.Commit
import Verif.Lemmas.Entrywise

/-! Closed forms of the commitment functions. -/

set_option linter.unusedSectionVars false
set_option linter.unusedVariables false

namespace GS

section draws
variable {ρ F : Type}

/-- `n` pairs of draws. -/
def drawPairs (randF : ρ → F × ρ) : Nat → ρ → List (F × F) × ρ
  | 0, s => ([], s)
  | n + 1, s =>
    let a := randF s
    let b := randF a.2
    let l := drawPairs randF n b.2
    ((a.1, b.1) :: l.1, l.2)

theorem drawPairs_length (f : ρ → F × ρ) (n : Nat) (s : ρ) : (drawPairs f n s).1.length = n := by
  induction n generalizing s with
  | zero => rfl
  | succ n ih => simp [drawPairs, ih]

theorem drawF_length (f : ρ → F × ρ) (n : Nat) (s : ρ) : (drawF f n s).1.length = n := by
  induction n generalizing s with
  | zero => rfl
  | succ n ih => simp [drawF, ih]

theorem drawRows2_eq (f : ρ → F × ρ) (n : Nat) (s : ρ) :
    drawRows2 f n s = ((drawPairs f n s).1.map (fun p => [p.1, p.2]), (drawPairs f n s).2) := by
  induction n generalizing s with
  | zero => rfl
  | succ n ih => simp [drawRows2, drawPairs, ih]

theorem drawRows1_eq (f : ρ → F × ρ) (n : Nat) (s : ρ) :
    drawRows1 f n s = (vecToColVec (drawF f n s).1, (drawF f n s).2) := by
  induction n generalizing s with
  | zero => rfl
  | succ n ih => simp [drawRows1, drawF, ih, vecToColVec]

theorem map_pair_ofFn {α : Type} {n : Nat} (R : Fin n → α × α) :
    (List.ofFn R).map (fun p => [p.1, p.2]) = matOf fun i (k : Fin 2) => if k = 0 then (R i).1 else (R i).2 := by
  simp [matOf, List.map_ofFn, Function.comp_def, List.ofFn_succ]

end draws

variable {F G1 G2 GT : Type} [Field F] [AddCommGroup G1] [Module F G1] [AddCommGroup G2] [Module F G2]
variable {ρ : Type} [Rng ρ F G1 G2]

theorem zipWith_ofFn {α β γ : Type} {n : Nat} (f : α → β → γ) (x : Fin n → α) (y : Fin n → β) :
    List.zipWith f (List.ofFn x) (List.ofFn y) = List.ofFn fun i => f (x i) (y i) := by
  apply List.ext_getElem <;> simp

/-- The batch computation for group elements, for a given key and drawn matrix. -/
def batchG {G : Type} [AddCommGroup G] [Module F G] (lin : List (Com G)) (u : List (Com G)) (R : Matrix F) :
    Res (List (Com G)) := do
  let ru ← ComMat.leftMul seqSched (vecToColVec u) R false
  let coms ← ComMat.add (vecToColVec lin) ru
  colVecToVec coms

theorem batchG_iff {G : Type} [AddCommGroup G] [Module F G] {lin u : List (Com G)} {R : List (F × F)}
    {cs : List (Com G)} (hR : R.length = lin.length) :
    batchG lin u (R.map fun p => [p.1, p.2]) = .ok cs ↔ lin ≠ [] ∧ ∃ u0 u1, u = [u0, u1] ∧
      cs = List.zipWith (fun l (r : F × F) => l + r.1 • u0 + r.2 • u1) lin R := by
  obtain ⟨l, hl⟩ := exists_ofFn lin rfl
  obtain ⟨r, hr⟩ := exists_ofFn R hR
  generalize lin.length = m at *
  subst hl hr
  rcases Nat.eq_zero_or_pos m with rfl | hm
  · simp only [List.ofFn_zero, batchG]
    constructor
    · intro h
      simp only [bind_ok_iff] at h
      obtain ⟨ru, -, c, h, -⟩ := h
      simp only [ComMat.add_eq, addG_iff] at h
      obtain ⟨-, n, h, -⟩ := h
      simp [firstRowLen, vecToColVec] at h
    · rintro ⟨h, -⟩; simp at h
  · have hne : (List.ofFn l) ≠ [] := by
      intro h; have := congrArg List.length h; simp at this; omega
    simp only [ne_eq, hne, not_false_eq_true, true_and]
    rw [map_pair_ofFn]
    constructor
    · intro h
      have h2 : u.length = 2 := by
        simp only [batchG, bind_ok_iff] at h
        obtain ⟨ru, h1, c, h2, -⟩ := h
        simp only [ComMat.add_eq, addG_iff] at h2
        obtain ⟨h2, -⟩ := h2
        rcases ComMat.leftMul_iff.mp h1 with ⟨-, rfl⟩ | ⟨dim, n, f, g, -, -, h3, h4, -⟩
        · simp at h2; omega
        · rw [firstRowLen_matOf hm] at h4
          cases h4; simpa using h3
      obtain ⟨u0, u1, rfl⟩ : ∃ a b, u = [a, b] := List.length_eq_two.mp h2
      refine ⟨u0, u1, rfl, ?_⟩
      have hu : [u0, u1] = List.ofFn (fun k : Fin 2 => if k = 0 then u0 else u1) := by simp [List.ofFn_succ]
      rw [batchG, hu, vecToColVec_ofFn, vecToColVec_ofFn, ComMat.leftMul_matOf hm (by decide) (by decide), ok_bind,
        ComMat.add_matOf hm, ok_bind, colVecToVec_matOf] at h
      rw [← Except.ok.inj h, zipWith_ofFn]
      simp [Fin.sum_univ_two, add_assoc]
    · rintro ⟨u0, u1, rfl, rfl⟩
      have hu : [u0, u1] = List.ofFn (fun k : Fin 2 => if k = 0 then u0 else u1) := by simp [List.ofFn_succ]
      rw [batchG, hu, vecToColVec_ofFn, vecToColVec_ofFn, ComMat.leftMul_matOf hm (by decide) (by decide), ok_bind,
        ComMat.add_matOf hm, ok_bind, colVecToVec_matOf, zipWith_ofFn]
      simp [Fin.sum_univ_two, add_assoc]

theorem batchCommitG1_iff {xs : List G1} {key : CRS G1 G2 GT} {rng : ρ} {r : Commit F G1 × ρ} :
    batchCommitG1 xs key rng = .ok r ↔ xs ≠ [] ∧ ∃ u0 u1, key.u = [u0, u1] ∧
      r = (⟨List.zipWith (fun x (ab : F × F) => Com1.linearMap x + ab.1 • u0 + ab.2 • u1) xs
              (drawPairs (Rng.randF (F := F) G1 G2) xs.length rng).1,
            (drawPairs (Rng.randF (F := F) G1 G2) xs.length rng).1.map fun p => [p.1, p.2]⟩,
          (drawPairs (Rng.randF (F := F) G1 G2) xs.length rng).2) := by
  have hB : batchCommitG1 xs key rng = (do
      let c ← batchG (Com1.batchLinearMap xs) key.u
        ((drawPairs (Rng.randF (F := F) G1 G2) xs.length rng).1.map fun p => [p.1, p.2])
      pure (⟨c, (drawPairs (Rng.randF (F := F) G1 G2) xs.length rng).1.map fun p => [p.1, p.2]⟩,
        (drawPairs (Rng.randF (F := F) G1 G2) xs.length rng).2)) := by
    simp only [batchCommitG1, drawRows2_eq, batchG, bind_assoc]
  rw [hB]
  have hl : (drawPairs (Rng.randF (F := F) G1 G2) xs.length rng).1.length = (Com1.batchLinearMap xs).length := by
    simp [Com1.batchLinearMap, drawPairs_length]
  simp only [bind_ok_iff, batchG_iff hl, pure_eq_ok, Except.ok.injEq]
  simp only [Com1.batchLinearMap, List.zipWith_map_left, ne_eq, List.map_eq_nil_iff]
  constructor
  · rintro ⟨c, ⟨h, u0, u1, hu, rfl⟩, rfl⟩; exact ⟨h, u0, u1, hu, rfl⟩
  · rintro ⟨h, u0, u1, hu, rfl⟩; exact ⟨_, ⟨h, u0, u1, hu, rfl⟩, rfl⟩

theorem batchCommitG2_iff {ys : List G2} {key : CRS G1 G2 GT} {rng : ρ} {r : Commit F G2 × ρ} :
    batchCommitG2 ys key rng = .ok r ↔ ys ≠ [] ∧ ∃ v0 v1, key.v = [v0, v1] ∧
      r = (⟨List.zipWith (fun y (ab : F × F) => Com2.linearMap y + ab.1 • v0 + ab.2 • v1) ys
              (drawPairs (Rng.randF (F := F) G1 G2) ys.length rng).1,
            (drawPairs (Rng.randF (F := F) G1 G2) ys.length rng).1.map fun p => [p.1, p.2]⟩,
          (drawPairs (Rng.randF (F := F) G1 G2) ys.length rng).2) := by
  have hB : batchCommitG2 ys key rng = (do
      let c ← batchG (Com2.batchLinearMap ys) key.v
        ((drawPairs (Rng.randF (F := F) G1 G2) ys.length rng).1.map fun p => [p.1, p.2])
      pure (⟨c, (drawPairs (Rng.randF (F := F) G1 G2) ys.length rng).1.map fun p => [p.1, p.2]⟩,
        (drawPairs (Rng.randF (F := F) G1 G2) ys.length rng).2)) := by
    simp only [batchCommitG2, drawRows2_eq, batchG, bind_assoc]
  rw [hB]
  have hl : (drawPairs (Rng.randF (F := F) G1 G2) ys.length rng).1.length = (Com2.batchLinearMap ys).length := by
    simp [Com2.batchLinearMap, drawPairs_length]
  simp only [bind_ok_iff, batchG_iff hl, pure_eq_ok, Except.ok.injEq]
  simp only [Com2.batchLinearMap, List.zipWith_map_left, ne_eq, List.map_eq_nil_iff]
  constructor
  · rintro ⟨c, ⟨h, u0, u1, hu, rfl⟩, rfl⟩; exact ⟨h, u0, u1, hu, rfl⟩
  · rintro ⟨h, u0, u1, hu, rfl⟩; exact ⟨_, ⟨h, u0, u1, hu, rfl⟩, rfl⟩

/-- The batch computation for scalars. -/
def batchS {G : Type} [AddCommGroup G] [Module F G] (lin : Res (List (Com G))) (u : List (Com G)) (r : List F) :
    Res (List (Com G)) := do
  let slin ← lin
  let ru ← collect (fun sca => do
    pure ((← idx2 (vecToColVec u) 0 0).scalarMul sca)) (← colVecToVec (vecToColVec r))
  let coms ← ComMat.add (vecToColVec slin) (vecToColVec ru)
  colVecToVec coms

theorem batchS_iff {G : Type} [AddCommGroup G] [Module F G] {f : F → Com G → Com G} {xs : List F}
    {u : List (Com G)} {r : List F} {lin : Res (List (Com G))} {cs : List (Com G)} (hr : r.length = xs.length)
    (hlin : ∀ c, lin = .ok c ↔ (xs = [] ∧ c = []) ∨ ∃ w, u[1]? = some w ∧ c = xs.map fun x => f x w) :
    batchS lin u r = .ok cs ↔ xs ≠ [] ∧ ∃ u0 u1 u', u = u0 :: u1 :: u' ∧
      cs = List.zipWith (fun x r => f x u1 + r • u0) xs r := by
  obtain ⟨x, hx⟩ := exists_ofFn xs rfl
  obtain ⟨r', hr⟩ := exists_ofFn r hr
  generalize xs.length = m at *
  subst hx hr
  rcases Nat.eq_zero_or_pos m with rfl | hm
  · simp only [List.ofFn_zero, batchS]
    constructor
    · intro h
      simp only [bind_ok_iff] at h
      obtain ⟨l, h1, ww, ww', ru, hru, c, h, hh⟩ := h
      rw [hlin] at h1
      simp at h1
      have : l = [] := by rcases h1 with h1 | h1; exact h1; exact h1.2
      subst this
      simp only [ComMat.add_eq, addG_iff] at h
      obtain ⟨-, n, h, -⟩ := h
      simp [firstRowLen, vecToColVec] at h
    · rintro ⟨h, -⟩; simp at h
  · have hne : (List.ofFn x) ≠ [] := by
      intro h; have := congrArg List.length h; simp at this; omega
    simp only [ne_eq, hne, not_false_eq_true, true_and, false_and, false_or] at hlin ⊢
    constructor
    · intro h
      have h0 : ∃ u0 u1 u', u = u0 :: u1 :: u' := by
        simp only [batchS, bind_ok_iff] at h
        obtain ⟨l, h1, -⟩ := h
        obtain ⟨w, h2, -⟩ := (hlin _).mp h1
        rcases u with _ | ⟨a, _ | ⟨b, u⟩⟩
        · simp at h2
        · simp at h2
        · exact ⟨_, _, _, rfl⟩
      obtain ⟨u0, u1, u', rfl⟩ := h0
      refine ⟨u0, u1, u', rfl, ?_⟩
      have hl : lin = .ok (List.ofFn fun i => f (x i) u1) := (hlin _).mpr ⟨u1, rfl, by
        simp [List.map_ofFn, Function.comp_def]⟩
      have hc : collect (fun sca => do
          pure ((← idx2 (vecToColVec (u0 :: u1 :: u')) 0 0).scalarMul sca)) (List.ofFn r') =
            .ok (List.ofFn fun i => r' i • u0) := collect_ofFn fun i => rfl
      rw [batchS, hl, ok_bind, colVecToVec_vecToColVec, ok_bind, hc, ok_bind, vecToColVec_ofFn, vecToColVec_ofFn,
        ComMat.add_matOf hm, ok_bind, colVecToVec_matOf] at h
      rw [← Except.ok.inj h, zipWith_ofFn]
    · rintro ⟨u0, u1, u', rfl, rfl⟩
      have hl : lin = .ok (List.ofFn fun i => f (x i) u1) := (hlin _).mpr ⟨u1, rfl, by
        simp [List.map_ofFn, Function.comp_def]⟩
      have hc : collect (fun sca => do
          pure ((← idx2 (vecToColVec (u0 :: u1 :: u')) 0 0).scalarMul sca)) (List.ofFn r') =
            .ok (List.ofFn fun i => r' i • u0) := collect_ofFn fun i => rfl
      rw [batchS, hl, ok_bind, colVecToVec_vecToColVec, ok_bind, hc, ok_bind, vecToColVec_ofFn, vecToColVec_ofFn,
        ComMat.add_matOf hm, ok_bind, colVecToVec_matOf, zipWith_ofFn]

theorem batchScalarLinearMap1_iff {xs : List F} {key : CRS G1 G2 GT} {c : List (Com G1)} :
    Com1.batchScalarLinearMap xs key = .ok c ↔ (xs = [] ∧ c = []) ∨
      ∃ w, key.u[1]? = some w ∧ c = xs.map fun x => x • (w + Com1.linearMap key.g1_gen) := by
  unfold Com1.batchScalarLinearMap
  rcases xs with _ | ⟨x, xs⟩
  · simp only [collect_nil, Except.ok.injEq, List.map_nil]
    constructor
    · rintro rfl; simp
    · rintro (⟨-, rfl⟩ | ⟨-, -, rfl⟩) <;> rfl
  · constructor
    · intro h
      obtain ⟨b, bs, h1, -, -⟩ := collect_cons_ok.mp h
      obtain ⟨w, hw, -⟩ := scalarLinearMap1_iff.mp h1
      refine .inr ⟨w, hw, ?_⟩
      rw [collect_ok_map (g := fun x => x • (w + Com1.linearMap key.g1_gen))
        (fun a _ => scalarLinearMap1_iff.mpr ⟨w, hw, rfl⟩)] at h
      exact (Except.ok.inj h).symm
    · rintro (⟨h, -⟩ | ⟨w, hw, rfl⟩)
      · simp at h
      · exact collect_ok_map (fun a _ => scalarLinearMap1_iff.mpr ⟨w, hw, rfl⟩)

theorem batchScalarLinearMap2_iff {xs : List F} {key : CRS G1 G2 GT} {c : List (Com G2)} :
    Com2.batchScalarLinearMap xs key = .ok c ↔ (xs = [] ∧ c = []) ∨
      ∃ w, key.v[1]? = some w ∧ c = xs.map fun x => x • (w + Com2.linearMap key.g2_gen) := by
  unfold Com2.batchScalarLinearMap
  rcases xs with _ | ⟨x, xs⟩
  · simp only [collect_nil, Except.ok.injEq, List.map_nil]
    constructor
    · rintro rfl; simp
    · rintro (⟨-, rfl⟩ | ⟨-, -, rfl⟩) <;> rfl
  · constructor
    · intro h
      obtain ⟨b, bs, h1, -, -⟩ := collect_cons_ok.mp h
      obtain ⟨w, hw, -⟩ := scalarLinearMap2_iff.mp h1
      refine .inr ⟨w, hw, ?_⟩
      rw [collect_ok_map (g := fun x => x • (w + Com2.linearMap key.g2_gen))
        (fun a _ => scalarLinearMap2_iff.mpr ⟨w, hw, rfl⟩)] at h
      exact (Except.ok.inj h).symm
    · rintro (⟨h, -⟩ | ⟨w, hw, rfl⟩)
      · simp at h
      · exact collect_ok_map (fun a _ => scalarLinearMap2_iff.mpr ⟨w, hw, rfl⟩)

theorem batchCommitScalarToB1_iff {xs : List F} {key : CRS G1 G2 GT} {rng : ρ} {r : Commit F G1 × ρ} :
    batchCommitScalarToB1 xs key rng = .ok r ↔ xs ≠ [] ∧ ∃ u0 u1 u', key.u = u0 :: u1 :: u' ∧
      r = (⟨List.zipWith (fun x (r : F) => x • (u1 + Com1.linearMap key.g1_gen) + r • u0) xs
              (drawF (Rng.randF (F := F) G1 G2) xs.length rng).1,
            (drawF (Rng.randF (F := F) G1 G2) xs.length rng).1.map fun r => [r]⟩,
          (drawF (Rng.randF (F := F) G1 G2) xs.length rng).2) := by
  have hB : batchCommitScalarToB1 xs key rng = (do
      let c ← batchS (Com1.batchScalarLinearMap xs key) key.u (drawF (Rng.randF (F := F) G1 G2) xs.length rng).1
      pure (⟨c, (drawF (Rng.randF (F := F) G1 G2) xs.length rng).1.map fun r => [r]⟩,
        (drawF (Rng.randF (F := F) G1 G2) xs.length rng).2)) := by
    simp only [batchCommitScalarToB1, drawRows1_eq, batchS, bind_assoc]; rfl
  rw [hB]
  simp only [bind_ok_iff, pure_eq_ok, Except.ok.injEq,
    batchS_iff (f := fun x w => x • (w + Com1.linearMap key.g1_gen)) (drawF_length _ _ _)
      (fun c => batchScalarLinearMap1_iff)]
  constructor
  · rintro ⟨c, ⟨h, u0, u1, u', hu, rfl⟩, rfl⟩; exact ⟨h, u0, u1, u', hu, rfl⟩
  · rintro ⟨h, u0, u1, u', hu, rfl⟩; exact ⟨_, ⟨h, u0, u1, u', hu, rfl⟩, rfl⟩

theorem batchCommitScalarToB2_iff {xs : List F} {key : CRS G1 G2 GT} {rng : ρ} {r : Commit F G2 × ρ} :
    batchCommitScalarToB2 xs key rng = .ok r ↔ xs ≠ [] ∧ ∃ v0 v1 v', key.v = v0 :: v1 :: v' ∧
      r = (⟨List.zipWith (fun x (r : F) => x • (v1 + Com2.linearMap key.g2_gen) + r • v0) xs
              (drawF (Rng.randF (F := F) G1 G2) xs.length rng).1,
            (drawF (Rng.randF (F := F) G1 G2) xs.length rng).1.map fun r => [r]⟩,
          (drawF (Rng.randF (F := F) G1 G2) xs.length rng).2) := by
  have hB : batchCommitScalarToB2 xs key rng = (do
      let c ← batchS (Com2.batchScalarLinearMap xs key) key.v (drawF (Rng.randF (F := F) G1 G2) xs.length rng).1
      pure (⟨c, (drawF (Rng.randF (F := F) G1 G2) xs.length rng).1.map fun r => [r]⟩,
        (drawF (Rng.randF (F := F) G1 G2) xs.length rng).2)) := by
    simp only [batchCommitScalarToB2, drawRows1_eq, batchS, bind_assoc]; rfl
  rw [hB]
  simp only [bind_ok_iff, pure_eq_ok, Except.ok.injEq,
    batchS_iff (f := fun x w => x • (w + Com2.linearMap key.g2_gen)) (drawF_length _ _ _)
      (fun c => batchScalarLinearMap2_iff)]
  constructor
  · rintro ⟨c, ⟨h, u0, u1, u', hu, rfl⟩, rfl⟩; exact ⟨h, u0, u1, u', hu, rfl⟩
  · rintro ⟨h, u0, u1, u', hu, rfl⟩; exact ⟨_, ⟨h, u0, u1, u', hu, rfl⟩, rfl⟩

theorem key2_iff {G : Type} {u : List (Com G)} {u0 u1 : Com G} :
    (idx2 (vecToColVec u) 0 0 = .ok u0 ∧ idx2 (vecToColVec u) 1 0 = .ok u1) ↔ ∃ u', u = u0 :: u1 :: u' := by
  rcases u with _ | ⟨a, _ | ⟨b, u⟩⟩
  · simp [idx2, vecToColVec]
  · simp [idx2, vecToColVec]
  · simp [idx2, vecToColVec]

theorem commitG1_iff {x : G1} {key : CRS G1 G2 GT} {rng : ρ} {r : Commit F G1 × ρ} :
    commitG1 x key rng = .ok r ↔ ∃ u0 u1 u', key.u = u0 :: u1 :: u' ∧
      r = (⟨[Com1.linearMap x + (Rng.randF (F := F) G1 G2 rng).1 • u0 +
              (Rng.randF (F := F) G1 G2 (Rng.randF (F := F) G1 G2 rng).2).1 • u1],
            [[(Rng.randF (F := F) G1 G2 rng).1, (Rng.randF (F := F) G1 G2 (Rng.randF (F := F) G1 G2 rng).2).1]]⟩,
          (Rng.randF (F := F) G1 G2 (Rng.randF (F := F) G1 G2 rng).2).2) := by
  simp only [commitG1, bind_ok_iff, pure_eq_ok, Except.ok.injEq, Com.scalarMul_eq]
  constructor
  · rintro ⟨u0, h0, u1, h1, rfl⟩
    obtain ⟨u', hu⟩ := key2_iff.mp ⟨h0, h1⟩
    exact ⟨u0, u1, u', hu, rfl⟩
  · rintro ⟨u0, u1, u', hu, rfl⟩
    obtain ⟨h0, h1⟩ := key2_iff.mpr ⟨u', hu⟩
    exact ⟨u0, h0, u1, h1, rfl⟩

theorem commitG2_iff {x : G2} {key : CRS G1 G2 GT} {rng : ρ} {r : Commit F G2 × ρ} :
    commitG2 x key rng = .ok r ↔ ∃ u0 u1 u', key.v = u0 :: u1 :: u' ∧
      r = (⟨[Com2.linearMap x + (Rng.randF (F := F) G1 G2 rng).1 • u0 +
              (Rng.randF (F := F) G1 G2 (Rng.randF (F := F) G1 G2 rng).2).1 • u1],
            [[(Rng.randF (F := F) G1 G2 rng).1, (Rng.randF (F := F) G1 G2 (Rng.randF (F := F) G1 G2 rng).2).1]]⟩,
          (Rng.randF (F := F) G1 G2 (Rng.randF (F := F) G1 G2 rng).2).2) := by
  simp only [commitG2, bind_ok_iff, pure_eq_ok, Except.ok.injEq, Com.scalarMul_eq]
  constructor
  · rintro ⟨u0, h0, u1, h1, rfl⟩
    obtain ⟨u', hu⟩ := key2_iff.mp ⟨h0, h1⟩
    exact ⟨u0, u1, u', hu, rfl⟩
  · rintro ⟨u0, u1, u', hu, rfl⟩
    obtain ⟨h0, h1⟩ := key2_iff.mpr ⟨u', hu⟩
    exact ⟨u0, h0, u1, h1, rfl⟩

theorem key1_iff {G : Type} {u : List (Com G)} {u0 u1 : Com G} :
    (u[1]? = some u1 ∧ idx2 (vecToColVec u) 0 0 = .ok u0) ↔ ∃ u', u = u0 :: u1 :: u' := by
  rcases u with _ | ⟨a, _ | ⟨b, u⟩⟩
  · simp [idx2, vecToColVec]
  · simp [idx2, vecToColVec]
  · simp [idx2, vecToColVec, and_comm]

theorem commitScalarToB1_iff {x : F} {key : CRS G1 G2 GT} {rng : ρ} {r : Commit F G1 × ρ} :
    commitScalarToB1 x key rng = .ok r ↔ ∃ u0 u1 u', key.u = u0 :: u1 :: u' ∧
      r = (⟨[x • (u1 + Com1.linearMap key.g1_gen) + (Rng.randF (F := F) G1 G2 rng).1 • u0],
            [[(Rng.randF (F := F) G1 G2 rng).1]]⟩, (Rng.randF (F := F) G1 G2 rng).2) := by
  simp only [commitScalarToB1, bind_ok_iff, pure_eq_ok, Except.ok.injEq, Com.scalarMul_eq, scalarLinearMap1_iff]
  constructor
  · rintro ⟨_, ⟨u1, h1, rfl⟩, u0, h0, rfl⟩
    obtain ⟨u', hu⟩ := key1_iff.mp ⟨h1, h0⟩
    exact ⟨u0, u1, u', hu, rfl⟩
  · rintro ⟨u0, u1, u', hu, rfl⟩
    obtain ⟨h1, h0⟩ := key1_iff.mpr ⟨u', hu⟩
    exact ⟨_, ⟨u1, h1, rfl⟩, u0, h0, rfl⟩

theorem commitScalarToB2_iff {x : F} {key : CRS G1 G2 GT} {rng : ρ} {r : Commit F G2 × ρ} :
    commitScalarToB2 x key rng = .ok r ↔ ∃ u0 u1 u', key.v = u0 :: u1 :: u' ∧
      r = (⟨[x • (u1 + Com2.linearMap key.g2_gen) + (Rng.randF (F := F) G1 G2 rng).1 • u0],
            [[(Rng.randF (F := F) G1 G2 rng).1]]⟩, (Rng.randF (F := F) G1 G2 rng).2) := by
  simp only [commitScalarToB2, bind_ok_iff, pure_eq_ok, Except.ok.injEq, Com.scalarMul_eq, scalarLinearMap2_iff]
  constructor
  · rintro ⟨_, ⟨u1, h1, rfl⟩, u0, h0, rfl⟩
    obtain ⟨u', hu⟩ := key1_iff.mp ⟨h1, h0⟩
    exact ⟨u0, u1, u', hu, rfl⟩
  · rintro ⟨u0, u1, u', hu, rfl⟩
    obtain ⟨h1, h0⟩ := key1_iff.mpr ⟨u', hu⟩
    exact ⟨_, ⟨u1, h1, rfl⟩, u0, h0, rfl⟩

end GS
