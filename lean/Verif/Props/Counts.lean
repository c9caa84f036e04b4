import Verif.Spec.Counts
import Verif.Spec.Opening
import Verif.Props.Hiding
import Verif.Props.Mirror
import Verif.Lemmas.Couple
import Verif.Props.Domains
import Mathlib.SetTheory.Cardinal.Finite

/-!
# C86: each possible commitment and each possible proof is equally likely

`tapeCount view v` (`Verif/Spec/Counts.lean`): the number of random tapes on which `view` returns `v`.
-/

set_option linter.unusedSectionVars false

namespace GS
variable {F G G1 G2 GT α : Type} [Field F] [AddCommGroup G] [Module F G] [AddCommGroup G1] [Module F G1] [AddCommGroup G2] [Module F G2]
  [AddCommGroup GT] [Module F GT] {e : G1 →ₗ[F] G2 →ₗ[F] GT} {crs : CRS G1 G2 GT}

section counting

theorem tapeCount_eq {X : Type} {N : Nat} (E : X ≃ (Fin N → F)) {view : (Fin N → F) → Res α} {g : X → α}
    (h : ∀ r, view (E r) = .ok (g r)) (v : α) : tapeCount view v = Nat.card {r // g r = v} := by
  refine Nat.card_congr (E.symm.subtypeEquiv fun t => ?_)
  have := h (E.symm t)
  rw [E.apply_symm_apply] at this
  rw [this, Except.ok.injEq]

theorem ok_of_map {β : Type} {x : Res α} {f : α → β} {w : β} (h : x.map f = .ok w) : x.Ok := by
  cases x with
  | ok a => exact ⟨a, rfl⟩
  | error p => cases h

theorem tapeCount_zero {N : Nat} {view : (Fin N → F) → Res α} {v : α} (h : ∀ t, view t ≠ .ok v) : tapeCount view v = 0 := by
  have : IsEmpty {t // view t = .ok v} := ⟨fun t => h t.1 t.2⟩
  exact Nat.card_of_isEmpty

/-- Translation carries the solutions for one value to those for another. -/
theorem card_translate {X : Type} [AddCommGroup X] {g : X → α} {r r' : X} (h : ∀ q, g q = g r → g (q + (r' - r)) = g r')
    (h' : ∀ q, g q = g r' → g (q + (r - r')) = g r) : Nat.card {q // g q = g r} = Nat.card {q // g q = g r'} :=
  Nat.card_congr
    { toFun := fun q => ⟨q.1 + (r' - r), h q.1 q.2⟩
      invFun := fun q => ⟨q.1 + (r - r'), h' q.1 q.2⟩
      left_inv := fun q => Subtype.ext (show q.1 + (r' - r) + (r - r') = q.1 by abel)
      right_inv := fun q => Subtype.ext (show q.1 + (r - r') + (r' - r) = q.1 by abel) }

end counting

section coms
variable {m p N : Nat}

/-- Commitments with given values: as many tapes as there are relations between the keys, for each commitment. -/
theorem count_coms (hN : N = m * p) {u : Fin p → Com G} {x : Fin m → Com G} {view : (Fin N → F) → Res (List (Com G))}
    (h : ∀ t (R : Fin m → Fin p → F), List.ofFn t = (matOf R).flatten →
      view t = .ok (List.ofFn fun i => x i + ∑ k, R i k • u k)) (c : Fin m → Com G)
    (hc : ∀ i, ∃ r : Fin p → F, c i = x i + ∑ k, r k • u k) :
    tapeCount view (List.ofFn c) = Nat.card {r : Fin p → F // ∑ k, r k • u k = 0} ^ m := by
  obtain ⟨E, hE⟩ := exists_matEquiv (F := F) hN
  choose R hR using hc
  rw [tapeCount_eq E (fun r => h _ _ (hE r)),
    Nat.card_congr (Equiv.subtypeEquivRight (q := fun r : Fin m → Fin p → F => ∀ i, x i + ∑ k, r i k • u k = c i) fun r => by
      rw [List.ofFn_inj, funext_iff]),
    Nat.card_congr (Equiv.subtypePiEquivPi (p := fun (i : Fin m) (r : Fin p → F) => x i + ∑ k, r k • u k = c i)), Nat.card_pi]
  rw [Finset.prod_congr rfl (g := fun _ => Nat.card {r : Fin p → F // ∑ k, r k • u k = 0})]
  · simp
  · intro i _
    refine Nat.card_congr ((Equiv.subRight (R i)).subtypeEquiv fun r => ?_)
    rw [hR]
    simp only [Equiv.subRight_apply, Pi.sub_apply, sub_smul, Finset.sum_sub_distrib, sub_eq_zero, add_right_inj]

theorem count_coms_zero (hN : N = m * p) {u : Fin p → Com G} {x : Fin m → Com G} {view : (Fin N → F) → Res (List (Com G))}
    (h : ∀ t (R : Fin m → Fin p → F), List.ofFn t = (matOf R).flatten →
      view t = .ok (List.ofFn fun i => x i + ∑ k, R i k • u k)) (c : List (Com G))
    (hc : ∀ c' : Fin m → Com G, c = List.ofFn c' → ¬ ∀ i, ∃ r : Fin p → F, c' i = x i + ∑ k, r k • u k) :
    tapeCount view c = 0 := by
  obtain ⟨E, hE⟩ := exists_matEquiv (F := F) hN
  refine tapeCount_zero fun t ht => ?_
  rw [← E.apply_symm_apply t, h _ _ (hE _), Except.ok.injEq] at ht
  exact hc _ ht.symm fun i => ⟨_, rfl⟩

theorem relations_generated {g : G} (hg : g ≠ 0) (a t : F) :
    Nat.card {r : Fin 2 → F // ∑ k, r k • ![(⟨g, a • g⟩ : Com G), ⟨t • g, t • a • g⟩] k = 0} = Nat.card F := by
  have h : ∀ r : Fin 2 → F, ∑ k, r k • ![(⟨g, a • g⟩ : Com G), ⟨t • g, t • a • g⟩] k = 0 ↔ r 0 + r 1 * t = 0 := by
    intro r
    simp only [Fin.sum_univ_two, Matrix.cons_val_zero, Matrix.cons_val_one]
    constructor
    · intro h
      have h0 : r 0 • g + r 1 • t • g = 0 := congrArg Com.c0 h
      rw [smul_smul, ← add_smul] at h0
      exact (smul_eq_zero.mp h0).resolve_right hg
    · intro h
      have : r 0 • (⟨g, a • g⟩ : Com G) + r 1 • (⟨t • g, t • a • g⟩ : Com G) = (r 0 + r 1 * t) • (⟨g, a • g⟩ : Com G) := by
        ext <;> simp <;> module
      rw [this, h, zero_smul]
  refine Nat.card_congr ⟨fun r => r.1 1, fun s => ⟨![-(s * t), s], (h _).mpr (by simp)⟩, fun r => Subtype.ext ?_, fun s => rfl⟩
  have := (h _).mp r.2
  funext k
  fin_cases k
  · simpa using (eq_neg_of_add_eq_zero_left this).symm
  · rfl

theorem relations_indep {u : Fin p → Com G} (hu : Indep (F := F) u) : Nat.card {r : Fin p → F // ∑ k, r k • u k = 0} = 1 := by
  rw [Nat.card_eq_one_iff_unique]
  exact ⟨⟨fun r r' => Subtype.ext ((hu _ r.2).trans (hu _ r'.2).symm)⟩, ⟨0, by simp⟩⟩

theorem indep_first {u0 : Com G} (h : u0 ≠ 0) : Indep (F := F) ![u0] := by
  intro r hr
  simp only [Fin.sum_univ_one, Matrix.cons_val_zero] at hr
  funext k
  fin_cases k
  exact (smul_eq_zero.mp hr).resolve_right h

theorem forall2_group {u0 u1 : Com G} {c : List (Com G)} {m : Nat} {x : Fin m → G} :
    List.Forall₂ (CanOpenGroup F [u0, u1]) c (List.ofFn x) ↔
      ∃ c' : Fin m → Com G, c = List.ofFn c' ∧ ∀ i, ∃ r : Fin 2 → F, c' i = ⟨0, x i⟩ + ∑ k, r k • ![u0, u1] k := by
  have hi : ∀ (c : Com G) (x : G), CanOpenGroup F [u0, u1] c x ↔ ∃ r : Fin 2 → F, c = ⟨0, x⟩ + ∑ k, r k • ![u0, u1] k := by
    intro c x
    constructor
    · rintro ⟨_, _, _, h, r, rfl⟩
      cases h
      exact ⟨![r.1, r.2], by simp [groupCom, Fin.sum_univ_two, add_assoc]⟩
    · rintro ⟨r, rfl⟩
      exact ⟨u0, u1, [], rfl, (r 0, r 1), by simp [groupCom, Fin.sum_univ_two, add_assoc]⟩
  rw [List.forall₂_iff_get]
  constructor
  · rintro ⟨hl, h⟩
    obtain ⟨c', rfl⟩ := exists_ofFn c (n := m) (by simpa using hl)
    refine ⟨c', rfl, fun i => (hi _ _).mp ?_⟩
    simpa using h i.1 (by simp) (by simp)
  · rintro ⟨c', rfl, h⟩
    refine ⟨by simp, fun i h1 h2 => ?_⟩
    simpa using (hi _ _).mpr (h ⟨i, by simpa using h1⟩)

theorem forall2_scalar {u0 u1 g : Com G} {p : G} {u' : List (Com G)} {c : List (Com G)} {m : Nat} {x : Fin m → F} (hg : g = ⟨0, p⟩) :
    List.Forall₂ (CanOpenScalar (u0 :: u1 :: u') p) c (List.ofFn x) ↔
      ∃ c' : Fin m → Com G, c = List.ofFn c' ∧ ∀ i, ∃ r : Fin 1 → F, c' i = x i • (u1 + g) + ∑ k, r k • ![u0] k := by
  subst hg
  have hi : ∀ (c : Com G) (x : F), CanOpenScalar (u0 :: u1 :: u') p c x ↔ ∃ r : Fin 1 → F, c = x • (u1 + ⟨0, p⟩) + ∑ k, r k • ![u0] k := by
    intro c x
    constructor
    · rintro ⟨_, _, _, h, r, rfl⟩
      cases h
      exact ⟨![r], by simp [scalarCom]⟩
    · rintro ⟨r, rfl⟩
      exact ⟨u0, u1, u', rfl, r 0, by simp [scalarCom]⟩
  rw [List.forall₂_iff_get]
  constructor
  · rintro ⟨hl, h⟩
    obtain ⟨c', rfl⟩ := exists_ofFn c (n := m) (by simpa using hl)
    refine ⟨c', rfl, fun i => (hi _ _).mp ?_⟩
    simpa using h i.1 (by simp) (by simp)
  · rintro ⟨c', rfl, h⟩
    refine ⟨by simp, fun i h1 h2 => ?_⟩
    simpa using (hi _ _).mpr (h ⟨i, by simpa using h1⟩)

end coms

theorem first_key1 (hs : GeneratedCrs e crs ∨ SimulatedCrs e crs) (hg : crs.g1_gen ≠ 0) :
    ∃ u0 u1, crs.u = [u0, u1] ∧ u0 ≠ 0 := by
  rcases hs with hs | hs
  · obtain ⟨p1, p2, a1, a2, t1, t2, rfl⟩ := generated_iff.mp hs
    rw [assembleReal_eq] at hg ⊢
    exact ⟨_, _, rfl, fun h => hg (congrArg Com.c0 h)⟩
  · obtain ⟨p1, p2, a1, a2, t1, t2, rfl⟩ := hs
    rw [assembleSim_eq] at hg ⊢
    exact ⟨_, _, rfl, fun h => hg (congrArg Com.c0 h)⟩

theorem first_key2 (hs : GeneratedCrs e crs ∨ SimulatedCrs e crs) (hg : crs.g2_gen ≠ 0) :
    ∃ u0 u1, crs.v = [u0, u1] ∧ u0 ≠ 0 := by
  rcases hs with hs | hs
  · obtain ⟨p1, p2, a1, a2, t1, t2, rfl⟩ := generated_iff.mp hs
    rw [assembleReal_eq] at hg ⊢
    exact ⟨_, _, rfl, fun h => hg (congrArg Com.c0 h)⟩
  · obtain ⟨p1, p2, a1, a2, t1, t2, rfl⟩ := hs
    rw [assembleSim_eq] at hg ⊢
    exact ⟨_, _, rfl, fun h => hg (congrArg Com.c0 h)⟩

/-- C86, `batch_commit_G1`: on a generated CRS each list of commitments that can be opened to the values is returned on
`|F|^m` of the `|F|^(2 m)` tapes, and no other; on a simulated one every list of `m` commitments is returned on exactly one tape. -/
theorem C86_commit_G1 (hg : crs.g1_gen ≠ 0) (x : List G1) (hx : x ≠ []) :
    (GeneratedCrs e crs → ∀ c, (List.Forall₂ (CanOpenGroup F crs.u) c x →
        tapeCount (N := 2 * x.length) (comsOn fun rng => batchCommitG1 (F := F) x crs rng) c = Nat.card F ^ x.length) ∧
      (¬ List.Forall₂ (CanOpenGroup F crs.u) c x →
        tapeCount (N := 2 * x.length) (comsOn fun rng => batchCommitG1 (F := F) x crs rng) c = 0)) ∧
    (PrimeGroups e → SimulatedCrs e crs → ∀ c : List (Com G1), c.length = x.length →
      tapeCount (N := 2 * x.length) (comsOn fun rng => batchCommitG1 (F := F) x crs rng) c = 1) := by
  have hm := List.length_pos_iff.mpr hx
  obtain ⟨m, hxm⟩ : ∃ m, x.length = m := ⟨_, rfl⟩
  rw [hxm] at hm
  rw [hxm]
  obtain ⟨x, rfl⟩ := exists_ofFn x hxm
  have hview : ∀ {u0 u1}, crs.u = [u0, u1] → ∀ (t : Fin (2 * m) → F) (R : Fin m → Fin 2 → F), List.ofFn t = (matOf R).flatten →
      comsOn (fun rng => batchCommitG1 (F := F) (List.ofFn x) crs rng) t =
        .ok (List.ofFn fun i => (⟨0, x i⟩ : Com G1) + ∑ k, R i k • ![u0, u1] k) := fun hu t R ht =>
    comsOn_ok ht (batchCommitG1_draws hm x hu (draws_flatten R (by omega))) (groupCom_sum _ _ x R)
  constructor
  · intro hs c
    obtain ⟨p1, p2, a1, a2, t1, t2, rfl⟩ := generated_iff.mp hs
    rw [assembleReal_eq] at hg hview ⊢
    constructor
    · intro hc
      obtain ⟨c, rfl, hc'⟩ := forall2_group.mp hc
      rw [count_coms (by omega) (hview rfl) c hc', relations_generated hg]
    · intro hc
      exact count_coms_zero (by omega) (hview rfl) c fun c' h1 h2 => hc (forall2_group.mpr ⟨c', h1, h2⟩)
  · intro he hs c hl
    obtain ⟨p1, p2, a1, a2, t1, t2, rfl⟩ := hs
    rw [assembleSim_eq] at hg hview ⊢
    have ku : HidingKey (F := F) p1 a1 t1 ⟨p1, a1 • p1⟩ ⟨t1 • p1, t1 • a1 • p1 - p1⟩ := ⟨hg, he.cyclic1 _ hg, rfl, rfl⟩
    obtain ⟨c, rfl⟩ := exists_ofFn c hl
    rw [count_coms (by omega) (hview rfl) c, relations_indep ku.indep2, one_pow]
    intro i
    obtain ⟨r, hr⟩ := (Submodule.mem_span_range_iff_exists_fun F).mp (ku.span2 (c i - ⟨0, x i⟩))
    exact ⟨r, by rw [hr]; abel⟩

/-- C86, `batch_commit_scalar_to_B1`: each list of commitments that can be opened to the values is returned on exactly one
tape, and no other on any. -/
theorem C86_commit_B1 (hs : GeneratedCrs e crs ∨ SimulatedCrs e crs) (hg : crs.g1_gen ≠ 0) (x : List F) (hx : x ≠ []) (c : List (Com G1)) :
    (List.Forall₂ (CanOpenScalar crs.u crs.g1_gen) c x →
      tapeCount (N := x.length) (comsOn fun rng => batchCommitScalarToB1 x crs rng) c = 1) ∧
    (¬ List.Forall₂ (CanOpenScalar crs.u crs.g1_gen) c x →
      tapeCount (N := x.length) (comsOn fun rng => batchCommitScalarToB1 x crs rng) c = 0) := by
  have hm := List.length_pos_iff.mpr hx
  obtain ⟨m, hxm⟩ : ∃ m, x.length = m := ⟨_, rfl⟩
  rw [hxm] at hm
  rw [hxm]
  obtain ⟨x, rfl⟩ := exists_ofFn x hxm
  obtain ⟨u0, u1, hu, h0⟩ := first_key1 hs hg
  have hview : ∀ (t : Fin m → F) (R : Fin m → Fin 1 → F), List.ofFn t = (matOf R).flatten →
      comsOn (fun rng => batchCommitScalarToB1 (List.ofFn x) crs rng) t =
        .ok (List.ofFn fun i => x i • (u1 + ⟨0, crs.g1_gen⟩) + ∑ k, R i k • ![u0] k) := fun t R ht =>
    comsOn_ok ht (batchCommitB1_draws hm x hu (draws_flatten R (by omega))) (scalarCom_sum _ _ _ x R)
  rw [hu]
  constructor
  · intro hc
    obtain ⟨c, rfl, hc'⟩ := (forall2_scalar rfl).mp hc
    rw [count_coms (by omega) hview c hc', relations_indep (indep_first h0), one_pow]
  · intro hc
    exact count_coms_zero (by omega) hview c fun c' h1 h2 => hc ((forall2_scalar rfl).mpr ⟨c', h1, h2⟩)

/-- C86, `batch_commit_G2`: on a generated CRS each list of commitments that can be opened to the values is returned on
`|F|^m` of the `|F|^(2 m)` tapes, and no other; on a simulated one every list of `m` commitments is returned on exactly one tape. -/
theorem C86_commit_G2 (hg : crs.g2_gen ≠ 0) (x : List G2) (hx : x ≠ []) :
    (GeneratedCrs e crs → ∀ c, (List.Forall₂ (CanOpenGroup F crs.v) c x →
        tapeCount (N := 2 * x.length) (comsOn fun rng => batchCommitG2 (F := F) x crs rng) c = Nat.card F ^ x.length) ∧
      (¬ List.Forall₂ (CanOpenGroup F crs.v) c x →
        tapeCount (N := 2 * x.length) (comsOn fun rng => batchCommitG2 (F := F) x crs rng) c = 0)) ∧
    (PrimeGroups e → SimulatedCrs e crs → ∀ c : List (Com G2), c.length = x.length →
      tapeCount (N := 2 * x.length) (comsOn fun rng => batchCommitG2 (F := F) x crs rng) c = 1) := by
  have hm := List.length_pos_iff.mpr hx
  obtain ⟨m, hxm⟩ : ∃ m, x.length = m := ⟨_, rfl⟩
  rw [hxm] at hm
  rw [hxm]
  obtain ⟨x, rfl⟩ := exists_ofFn x hxm
  have hview : ∀ {u0 u1}, crs.v = [u0, u1] → ∀ (t : Fin (2 * m) → F) (R : Fin m → Fin 2 → F), List.ofFn t = (matOf R).flatten →
      comsOn (fun rng => batchCommitG2 (F := F) (List.ofFn x) crs rng) t =
        .ok (List.ofFn fun i => (⟨0, x i⟩ : Com G2) + ∑ k, R i k • ![u0, u1] k) := fun hu t R ht =>
    comsOn_ok ht (batchCommitG2_draws hm x hu (draws_flatten R (by omega))) (groupCom_sum _ _ x R)
  constructor
  · intro hs c
    obtain ⟨p1, p2, a1, a2, t1, t2, rfl⟩ := generated_iff.mp hs
    rw [assembleReal_eq] at hg hview ⊢
    constructor
    · intro hc
      obtain ⟨c, rfl, hc'⟩ := forall2_group.mp hc
      rw [count_coms (by omega) (hview rfl) c hc', relations_generated hg]
    · intro hc
      exact count_coms_zero (by omega) (hview rfl) c fun c' h1 h2 => hc (forall2_group.mpr ⟨c', h1, h2⟩)
  · intro he hs c hl
    obtain ⟨p1, p2, a1, a2, t1, t2, rfl⟩ := hs
    rw [assembleSim_eq] at hg hview ⊢
    have ku : HidingKey (F := F) p2 a2 t2 ⟨p2, a2 • p2⟩ ⟨t2 • p2, t2 • a2 • p2 - p2⟩ := ⟨hg, he.cyclic2 _ hg, rfl, rfl⟩
    obtain ⟨c, rfl⟩ := exists_ofFn c hl
    rw [count_coms (by omega) (hview rfl) c, relations_indep ku.indep2, one_pow]
    intro i
    obtain ⟨r, hr⟩ := (Submodule.mem_span_range_iff_exists_fun F).mp (ku.span2 (c i - ⟨0, x i⟩))
    exact ⟨r, by rw [hr]; abel⟩

/-- C86, `batch_commit_scalar_to_B2`: each list of commitments that can be opened to the values is returned on exactly one
tape, and no other on any. -/
theorem C86_commit_B2 (hs : GeneratedCrs e crs ∨ SimulatedCrs e crs) (hg : crs.g2_gen ≠ 0) (x : List F) (hx : x ≠ []) (c : List (Com G2)) :
    (List.Forall₂ (CanOpenScalar crs.v crs.g2_gen) c x →
      tapeCount (N := x.length) (comsOn fun rng => batchCommitScalarToB2 x crs rng) c = 1) ∧
    (¬ List.Forall₂ (CanOpenScalar crs.v crs.g2_gen) c x →
      tapeCount (N := x.length) (comsOn fun rng => batchCommitScalarToB2 x crs rng) c = 0) := by
  have hm := List.length_pos_iff.mpr hx
  obtain ⟨m, hxm⟩ : ∃ m, x.length = m := ⟨_, rfl⟩
  rw [hxm] at hm
  rw [hxm]
  obtain ⟨x, rfl⟩ := exists_ofFn x hxm
  obtain ⟨u0, u1, hu, h0⟩ := first_key2 hs hg
  have hview : ∀ (t : Fin m → F) (R : Fin m → Fin 1 → F), List.ofFn t = (matOf R).flatten →
      comsOn (fun rng => batchCommitScalarToB2 (List.ofFn x) crs rng) t =
        .ok (List.ofFn fun i => x i • (u1 + ⟨0, crs.g2_gen⟩) + ∑ k, R i k • ![u0] k) := fun t R ht =>
    comsOn_ok ht (batchCommitB2_draws hm x hu (draws_flatten R (by omega))) (scalarCom_sum _ _ _ x R)
  rw [hu]
  constructor
  · intro hc
    obtain ⟨c, rfl, hc'⟩ := (forall2_scalar rfl).mp hc
    rw [count_coms (by omega) hview c hc', relations_indep (indep_first h0), one_pow]
  · intro hc
    exact count_coms_zero (by omega) hview c fun c' h1 h2 => hc ((forall2_scalar rfl).mpr ⟨c', h1, h2⟩)

section proofs
variable {A B : Type} [AddCommGroup A] [Module F A] [AddCommGroup B] [Module F B] {m n p q N : Nat}

/-- Views with the same commitments arise from equally many tapes. -/
theorem count_views (hN : N = m * p + n * q + q * p) {ty : EquType} {u : Fin p → Com G1} {v : Fin q → Com G2} {a : Fin n → Com G1}
    {x : Fin m → Com G1} {b : Fin m → Com G2} {y : Fin n → Com G2} {γ : Fin m → Fin n → F} {view : (Fin N → F) → Res (View G1 G2)}
    (h : ∀ t r, List.ofFn t = flat r → view t = .ok (pub ty (viewFn u v a x b y γ r))) {t t' : Fin N → F} {w w' : View G1 G2}
    (hw : view t = .ok w) (hw' : view t' = .ok w') (hx : w.1 = w'.1) (hy : w.2.1 = w'.2.1) : tapeCount view w = tapeCount view w' := by
  obtain ⟨E, hE⟩ := exists_tapeEquiv (F := F) (m := m) (n := n) (p := p) (q := q) hN
  have hv : ∀ r, view (E r) = .ok (pub ty (viewFn u v a x b y γ r)) := fun r => h _ _ (hE r)
  obtain ⟨r, rfl⟩ := E.surjective t
  obtain ⟨r', rfl⟩ := E.surjective t'
  rw [hv, Except.ok.injEq] at hw hw'
  subst hw hw'
  rw [tapeCount_eq E hv, tapeCount_eq E hv]
  have hx' : ∀ i, ∑ k, r.1 i k • u k = ∑ k, r'.1 i k • u k := fun i => by
    simpa [viewFn] using congrFun (List.ofFn_injective hx) i
  have hy' : ∀ j, ∑ l, r.2.1 j l • v l = ∑ l, r'.2.1 j l • v l := fun j => by
    simpa [viewFn] using congrFun (List.ofFn_injective hy) j
  have key : ∀ r r' : Rands F m n p q, (∀ i, ∑ k, r.1 i k • u k = ∑ k, r'.1 i k • u k) →
      (∀ j, ∑ l, r.2.1 j l • v l = ∑ l, r'.2.1 j l • v l) → ∀ s, pub ty (viewFn u v a x b y γ s) = pub ty (viewFn u v a x b y γ r) →
      pub ty (viewFn u v a x b y γ (s + (r' - r))) = pub ty (viewFn u v a x b y γ r') := by
    intro r r' h1 h2 s hs
    simp only [pub, Prod.mk.injEq, List.cons.injEq, and_true] at hs
    obtain ⟨e1, e2, e3, e4⟩ := hs
    replace e1 : ∀ i, ∑ k, s.1 i k • u k = ∑ k, r.1 i k • u k := fun i => by
      simpa [viewFn] using congrFun (List.ofFn_injective e1) i
    replace e2 : ∀ j, ∑ l, s.2.1 j l • v l = ∑ l, r.2.1 j l • v l := fun j => by
      simpa [viewFn] using congrFun (List.ofFn_injective e2) j
    replace e3 : ∀ k, piVal b y γ s.1 s.2.1 s.2.2 v k = piVal b y γ r.1 r.2.1 r.2.2 v k := congrFun (List.ofFn_injective e3)
    replace e4 : ∀ l, thetaVal a x γ s.2.1 s.2.2 u l = thetaVal a x γ r.2.1 r.2.2 u l := congrFun (List.ofFn_injective e4)
    have h3 : ∀ i, ∑ k, (s + (r' - r)).1 i k • u k = ∑ k, r'.1 i k • u k := fun i => by
      simp only [Prod.fst_add, Prod.fst_sub, Pi.add_apply, Pi.sub_apply, add_smul, sub_smul, Finset.sum_add_distrib,
        Finset.sum_sub_distrib, e1]
      abel
    have h4 : ∀ j, ∑ l, (s + (r' - r)).2.1 j l • v l = ∑ l, r'.2.1 j l • v l := fun j => by
      simp only [Prod.snd_add, Prod.snd_sub, Prod.fst_add, Prod.fst_sub, Pi.add_apply, Pi.sub_apply, add_smul, sub_smul,
        Finset.sum_add_distrib, Finset.sum_sub_distrib, e2]
      abel
    have h5 : viewFn u v a x b y γ (s + (r' - r)) = viewFn u v a x b y γ r' := by
      simp only [viewFn, Prod.mk.injEq]
      refine ⟨funext fun i => by rw [h3], funext fun j => by rw [h4], funext fun k => ?_, funext fun l => ?_⟩
      · have := e3 k
        rw [piVal_eq, piVal_eq] at this
        rw [piVal_eq, piVal_eq]
        simp only [h4, e2] at this ⊢
        simp only [h2] at this
        simp only [Prod.snd_add, Prod.snd_sub, Prod.fst_add, Prod.fst_sub, Pi.add_apply, Pi.sub_apply, add_smul, sub_smul,
          Finset.sum_add_distrib, Finset.sum_sub_distrib]
        rw [← sub_eq_zero] at this ⊢
        rw [← this]
        abel
      · have := e4 l
        rw [thetaVal_eq, thetaVal_eq] at this
        rw [thetaVal_eq, thetaVal_eq]
        simp only [Prod.snd_add, Prod.snd_sub, Prod.fst_add, Prod.fst_sub, Pi.add_apply, Pi.sub_apply, add_smul, sub_smul,
          Finset.sum_add_distrib, Finset.sum_sub_distrib]
        rw [← sub_eq_zero] at this ⊢
        rw [← this]
        abel
    rw [h5]
  exact card_translate (key r r' hx' hy') (key r' r (fun i => (hx' i).symm) fun j => (hy' j).symm)

/-- Random matrices that do not change the proof. -/
def Idle (u : Fin p → A) (v : Fin q → B) (T : Fin q → Fin p → F) : Prop :=
  (∀ l, ∑ k, T l k • u k = 0) ∧ ∀ k, ∑ l, T l k • v l = 0

/-- Each proof arises from as many random matrices as there are idle ones. -/
theorem count_proofs (hN : N = q * p) {ty : EquType} {u : Fin p → Com G1} {v : Fin q → Com G2} {a : Fin n → Com G1} {x : Fin m → Com G1}
    {b : Fin m → Com G2} {y : Fin n → Com G2} {γ : Fin m → Fin n → F} {R : Fin m → Fin p → F} {S : Fin n → Fin q → F}
    {run : List F → Res (EquProof F G1 G2 × List F)}
    (h : ∀ T : Fin q → Fin p → F, run (matOf T).flatten =
      .ok (⟨List.ofFn (piVal b y γ R S T v), List.ofFn (thetaVal a x γ S T u), ty, matOf T⟩, []))
    {t : Fin N → F} {w : List (Com G2) × List (Com G1) × EquType} (hw : proofOn run t = .ok w) :
    tapeCount (N := N) (proofOn run) w = Nat.card {T : Fin q → Fin p → F // Idle u v T} := by
  obtain ⟨E, hE⟩ := exists_matEquiv (F := F) hN
  have hv : ∀ T, proofOn run (E T) = .ok (List.ofFn (piVal b y γ R S T v), List.ofFn (thetaVal a x γ S T u), ty) := fun T => by
    rw [proofOn, hE, h]
    rfl
  obtain ⟨T, rfl⟩ := E.surjective t
  rw [hv, Except.ok.injEq] at hw
  subst hw
  rw [tapeCount_eq E hv]
  refine Nat.card_congr ((Equiv.subRight T).subtypeEquiv fun T' => ?_)
  simp only [Prod.mk.injEq, and_true, List.ofFn_inj, funext_iff, piVal_eq, thetaVal_eq, add_right_inj, sub_right_inj, Idle,
    Equiv.subRight_apply, Pi.sub_apply, sub_smul, Finset.sum_sub_distrib, sub_eq_zero]
  exact and_comm

theorem idle_left {u : Fin p → A} (hu : Indep (F := F) u) (v : Fin q → B) : Nat.card {T : Fin q → Fin p → F // Idle u v T} = 1 := by
  rw [Nat.card_eq_one_iff_unique]
  exact ⟨⟨fun T T' => Subtype.ext (funext fun l => (hu _ (T.2.1 l)).trans (hu _ (T'.2.1 l)).symm)⟩, ⟨0, by simp [Idle]⟩⟩

theorem idle_right (u : Fin p → A) {v : Fin q → B} (hv : Indep (F := F) v) : Nat.card {T : Fin q → Fin p → F // Idle u v T} = 1 := by
  rw [Nat.card_eq_one_iff_unique]
  refine ⟨⟨fun T T' => Subtype.ext (funext fun l => funext fun k => ?_)⟩, ⟨0, by simp [Idle]⟩⟩
  exact congrFun ((hv (fun l => T.1 l k) (T.2.2 k)).trans (hv (fun l => T'.1 l k) (T'.2.2 k)).symm) l

theorem idle_generated {g1 : G1} {g2 : G2} (h1 : g1 ≠ 0) (h2 : g2 ≠ 0) (a1 a2 t1 t2 : F) :
    Nat.card {T : Fin 2 → Fin 2 → F // Idle ![(⟨g1, a1 • g1⟩ : Com G1), ⟨t1 • g1, t1 • a1 • g1⟩]
      ![(⟨g2, a2 • g2⟩ : Com G2), ⟨t2 • g2, t2 • a2 • g2⟩] T} = Nat.card F := by
  have h : ∀ {G : Type} [AddCommGroup G] [Module F G] {g : G}, g ≠ 0 → ∀ (a t r s : F),
      r • (⟨g, a • g⟩ : Com G) + s • (⟨t • g, t • a • g⟩ : Com G) = 0 ↔ r = -(s * t) := by
    intro G _ _ g hg a t r s
    have : r • (⟨g, a • g⟩ : Com G) + s • (⟨t • g, t • a • g⟩ : Com G) = (r + s * t) • (⟨g, a • g⟩ : Com G) := by
      ext <;> simp <;> module
    rw [this, ← add_eq_zero_iff_eq_neg]
    constructor
    · intro h
      exact (smul_eq_zero.mp (show (r + s * t) • g = 0 from congrArg Com.c0 h)).resolve_right hg
    · intro h
      rw [h, zero_smul]
  have hi : ∀ T : Fin 2 → Fin 2 → F, Idle ![(⟨g1, a1 • g1⟩ : Com G1), ⟨t1 • g1, t1 • a1 • g1⟩]
      ![(⟨g2, a2 • g2⟩ : Com G2), ⟨t2 • g2, t2 • a2 • g2⟩] T ↔
      (T 0 0 = -(T 0 1 * t1) ∧ T 1 0 = -(T 1 1 * t1)) ∧ T 0 0 = -(T 1 0 * t2) ∧ T 0 1 = -(T 1 1 * t2) := by
    intro T
    simp only [Idle, Fin.forall_fin_two, Fin.sum_univ_two, Matrix.cons_val_zero, Matrix.cons_val_one, h h1, h h2]
  refine Nat.card_congr ⟨fun T => T.1 1 1, fun s => ⟨![![s * t1 * t2, -(s * t2)], ![-(s * t1), s]], (hi _).mpr ?_⟩,
    fun T => Subtype.ext ?_, fun s => rfl⟩
  · simp only [Matrix.cons_val_zero, Matrix.cons_val_one]
    refine ⟨⟨by ring, trivial⟩, by ring, trivial⟩
  · obtain ⟨⟨e1, e2⟩, e3, e4⟩ := (hi _).mp T.2
    funext l k
    fin_cases l <;> fin_cases k
    · simp [e1, e4]; ring
    · simp [e4]
    · simp [e2]
    · simp

end proofs

variable {sch : Nat → Scheduler}

/-- The proofs of given commitments: each arises from as many random matrices as there are idle ones. -/
theorem PPE.count_prove (equ : PPE F G1 G2 GT) (x : List G1) (y : List G2) (hx : x ≠ []) (hy : y ≠ [])
    (hd : equ.Dims x.length y.length) (xc : Commit F G1) (yc : Commit F G2) (hxr : Rect x.length 2 xc.rand) (hyr : Rect y.length 2 yc.rand)
    {u0 u1 : Com G1} {v0 v1 : Com G2} (hu : crs.u = [u0, u1]) (hv : crs.v = [v0, v1])
    {t : Fin 4 → F} {w : List (Com G2) × List (Com G1) × EquType}
    (hw : proofOn (fun rng => equ.prove sch x y xc yc crs rng) t = .ok w) :
    tapeCount (N := 4) (proofOn fun rng => equ.prove sch x y xc yc crs rng) w =
      Nat.card {T : Fin 2 → Fin 2 → F // Idle ![u0, u1] ![v0, v1] T} := by
  have hm := List.length_pos_iff.mpr hx
  have hn := List.length_pos_iff.mpr hy
  obtain ⟨m, hxm⟩ : ∃ m, x.length = m := ⟨_, rfl⟩
  obtain ⟨n, hyn⟩ : ∃ n, y.length = n := ⟨_, rfl⟩
  rw [hxm] at hm hd hxr
  rw [hyn] at hn hd hyr
  obtain ⟨a, ha⟩ := exists_ofFn equ.a_consts hd.a
  obtain ⟨b, hb⟩ := exists_ofFn equ.b_consts hd.b
  obtain ⟨γ, hγ⟩ := rect_iff.mp (⟨hd.rows, hd.cols⟩ : Rect _ _ equ.gamma)
  obtain ⟨x, rfl⟩ := exists_ofFn x hxm
  obtain ⟨y, rfl⟩ := exists_ofFn y hyn
  obtain ⟨R, hR⟩ := rect_iff.mp hxr
  obtain ⟨S, hS⟩ := rect_iff.mp hyr
  exact count_proofs (p := 2) (q := 2) rfl (fun T => PPE.prove_closed hm hn ha hb hγ x y hR hS hu hv (T := T)
    (by simp [matOf, List.ofFn_succ, d1, Rng.randF]) (by simp [matOf, List.ofFn_succ, d1, Rng.randF])) hw

/-- C86, `prove`: with any CRS, all proofs that `prove` can return for given commitments are returned on equally many tapes. -/
theorem C86_ppe_prove (equ : PPE F G1 G2 GT) (x : List G1) (y : List G2)
    (xc : Commit F G1) (yc : Commit F G2) (t t' : Fin 4 → F) (w w' : List (Com G2) × List (Com G1) × EquType)
    (hw : proofOn (fun rng => equ.prove sch x y xc yc crs rng) t = .ok w)
    (hw' : proofOn (fun rng => equ.prove sch x y xc yc crs rng) t' = .ok w') :
    tapeCount (N := 4) (proofOn fun rng => equ.prove sch x y xc yc crs rng) w =
      tapeCount (N := 4) (proofOn fun rng => equ.prove sch x y xc yc crs rng) w' := by
  obtain ⟨hx, hy, hxr, hyr, hd, hu, hv⟩ := (C36_ppe ..).1.mp (ok_of_map hw)
  obtain ⟨u0, u1, hu⟩ := List.length_eq_two.mp hu
  obtain ⟨v0, v1, hv⟩ := List.length_eq_two.mp hv
  rw [PPE.count_prove equ x y hx hy hd xc yc hxr hyr hu hv hw, PPE.count_prove equ x y hx hy hd xc yc hxr hyr hu hv hw']

/-- C86, `prove`: on a generated CRS each such proof is returned on `|F|` of the `|F|^4` tapes, on a simulated CRS on one. -/
theorem C86_ppe_prove_count (hg : crs.NonzeroGens) (equ : PPE F G1 G2 GT) (x : List G1) (y : List G2)
    (xc : Commit F G1) (yc : Commit F G2) (t : Fin 4 → F) (w : List (Com G2) × List (Com G1) × EquType)
    (hw : proofOn (fun rng => equ.prove sch x y xc yc crs rng) t = .ok w) :
    (GeneratedCrs e crs → tapeCount (N := 4) (proofOn fun rng => equ.prove sch x y xc yc crs rng) w = Nat.card F) ∧
    (PrimeGroups e → SimulatedCrs e crs → tapeCount (N := 4) (proofOn fun rng => equ.prove sch x y xc yc crs rng) w = 1) := by
  obtain ⟨hx, hy, hxr, hyr, hd, -⟩ := (C36_ppe ..).1.mp (ok_of_map hw)
  constructor
  · intro hs
    obtain ⟨p1, p2, a1, a2, t1, t2, rfl⟩ := generated_iff.mp hs
    rw [assembleReal_eq] at hg hw ⊢
    rw [PPE.count_prove equ x y hx hy hd xc yc hxr hyr rfl rfl hw, idle_generated hg.1 hg.2]
  · intro he hs
    obtain ⟨u0, u1, v0, v1, a1, t1, a2, t2, hu, hv, ku, kv⟩ := hs.keys he hg
    rw [PPE.count_prove equ x y hx hy hd xc yc hxr hyr hu hv hw, idle_left ku.indep2]

theorem PPE.count_view (equ : PPE F G1 G2 GT) (x : List G1) (y : List G2) (hx : x ≠ []) (hy : y ≠ [])
    (hd : equ.Dims x.length y.length) (hu : crs.u.length = 2) (hv : crs.v.length = 2) {N : Nat} (hN : N = 2 * x.length + 2 * y.length + 4) {t t' : Fin N → F} {w w' : View G1 G2}
    (hw : viewOn (fun rng => equ.commitAndProve sch x y crs rng) t = .ok w)
    (hw' : viewOn (fun rng => equ.commitAndProve sch x y crs rng) t' = .ok w') (hc : w.1 = w'.1) (hc' : w.2.1 = w'.2.1) :
    tapeCount (N := N) (viewOn fun rng => equ.commitAndProve sch x y crs rng) w =
      tapeCount (N := N) (viewOn fun rng => equ.commitAndProve sch x y crs rng) w' := by
  obtain ⟨u0, u1, hu⟩ := List.length_eq_two.mp hu
  obtain ⟨v0, v1, hv⟩ := List.length_eq_two.mp hv
  have hm := List.length_pos_iff.mpr hx
  have hn := List.length_pos_iff.mpr hy
  obtain ⟨m, hxm⟩ : ∃ m, x.length = m := ⟨_, rfl⟩
  obtain ⟨n, hyn⟩ : ∃ n, y.length = n := ⟨_, rfl⟩
  rw [hxm] at hm hd
  rw [hyn] at hn hd
  obtain ⟨a, ha⟩ := exists_ofFn equ.a_consts hd.a
  obtain ⟨b, hb⟩ := exists_ofFn equ.b_consts hd.b
  obtain ⟨γ, hγ⟩ := rect_iff.mp (⟨hd.rows, hd.cols⟩ : Rect _ _ equ.gamma)
  obtain ⟨x, rfl⟩ := exists_ofFn x hxm
  obtain ⟨y, rfl⟩ := exists_ofFn y hyn
  simp only [List.length_ofFn] at hN
  subst hN
  exact count_views (p := 2) (q := 2) (by omega) (PPE.view_eq hm hn ha hb hγ x y hu hv) hw hw' hc hc'

/-- C86, `commit_and_prove`: with any CRS, all published proofs with the same commitments are published on equally many tapes. -/
theorem C86_ppe_commit_and_prove (equ : PPE F G1 G2 GT) (x : List G1) (y : List G2)
    (t t' : Fin (2 * x.length + 2 * y.length + 4) → F) (w w' : View G1 G2)
    (hw : viewOn (fun rng => equ.commitAndProve sch x y crs rng) t = .ok w)
    (hw' : viewOn (fun rng => equ.commitAndProve sch x y crs rng) t' = .ok w') (hc : w.1 = w'.1) (hc' : w.2.1 = w'.2.1) :
    tapeCount (N := 2 * x.length + 2 * y.length + 4) (viewOn fun rng => equ.commitAndProve sch x y crs rng) w =
      tapeCount (N := 2 * x.length + 2 * y.length + 4) (viewOn fun rng => equ.commitAndProve sch x y crs rng) w' := by
  obtain ⟨hx, hy, hd, hu, hv⟩ := ((C36_commit_and_prove ..).1 _ _ _).mp (ok_of_map hw)
  exact PPE.count_view equ x y hx hy hd hu hv rfl hw hw' hc hc'

/-- The proofs of given commitments: each arises from as many random matrices as there are idle ones. -/
theorem MSMEG1.count_prove (equ : MSMEG1 F G1) (x : List G1) (y : List F) (hx : x ≠ []) (hy : y ≠ [])
    (hd : equ.Dims x.length y.length) (xc : Commit F G1) (yc : Commit F G2) (hxr : Rect x.length 2 xc.rand) (hyr : Rect y.length 1 yc.rand)
    {u0 u1 : Com G1} {v0 v1 : Com G2} {v' : List (Com G2)} (hu : crs.u = [u0, u1]) (hv : crs.v = v0 :: v1 :: v')
    {t : Fin 2 → F} {w : List (Com G2) × List (Com G1) × EquType}
    (hw : proofOn (fun rng => equ.prove sch x y xc yc crs rng) t = .ok w) :
    tapeCount (N := 2) (proofOn fun rng => equ.prove sch x y xc yc crs rng) w =
      Nat.card {T : Fin 1 → Fin 2 → F // Idle ![u0, u1] ![v0] T} := by
  have hm := List.length_pos_iff.mpr hx
  have hn := List.length_pos_iff.mpr hy
  obtain ⟨m, hxm⟩ : ∃ m, x.length = m := ⟨_, rfl⟩
  obtain ⟨n, hyn⟩ : ∃ n, y.length = n := ⟨_, rfl⟩
  rw [hxm] at hm hd hxr
  rw [hyn] at hn hd hyr
  obtain ⟨a, ha⟩ := exists_ofFn equ.a_consts hd.a
  obtain ⟨b, hb⟩ := exists_ofFn equ.b_consts hd.b
  obtain ⟨γ, hγ⟩ := rect_iff.mp (⟨hd.rows, hd.cols⟩ : Rect _ _ equ.gamma)
  obtain ⟨x, rfl⟩ := exists_ofFn x hxm
  obtain ⟨y, rfl⟩ := exists_ofFn y hyn
  obtain ⟨R, hR⟩ := rect_iff.mp hxr
  obtain ⟨S, hS⟩ := rect_iff.mp hyr
  exact count_proofs (p := 2) (q := 1) rfl (fun T => MSMEG1.prove_closed hm hn ha hb hγ x y hR hS hu hv (T := T)
    (by simp [matOf, List.ofFn_succ, d1, Rng.randF]) (by simp [matOf, List.ofFn_succ, d1, Rng.randF])) hw

/-- C86, `prove`: with any CRS, all proofs that `prove` can return for given commitments are returned on equally many tapes. -/
theorem C86_msmeg1_prove (equ : MSMEG1 F G1) (x : List G1) (y : List F)
    (xc : Commit F G1) (yc : Commit F G2) (t t' : Fin 2 → F) (w w' : List (Com G2) × List (Com G1) × EquType)
    (hw : proofOn (fun rng => equ.prove sch x y xc yc crs rng) t = .ok w)
    (hw' : proofOn (fun rng => equ.prove sch x y xc yc crs rng) t' = .ok w') :
    tapeCount (N := 2) (proofOn fun rng => equ.prove sch x y xc yc crs rng) w =
      tapeCount (N := 2) (proofOn fun rng => equ.prove sch x y xc yc crs rng) w' := by
  obtain ⟨hx, hy, hxr, hyr, hd, hu, hv⟩ := (C36_msmeg1 ..).1.mp (ok_of_map hw)
  obtain ⟨u0, u1, hu⟩ := List.length_eq_two.mp hu
  obtain ⟨v0, v1, v', hv⟩ := cons2_of_length hv
  rw [MSMEG1.count_prove equ x y hx hy hd xc yc hxr hyr hu hv hw, MSMEG1.count_prove equ x y hx hy hd xc yc hxr hyr hu hv hw']

/-- C86, `prove`: on a generated or simulated CRS each such proof is returned on exactly one tape. -/
theorem C86_msmeg1_prove_count (hs : GeneratedCrs e crs ∨ SimulatedCrs e crs) (hg : crs.NonzeroGens) (equ : MSMEG1 F G1) (x : List G1)
    (y : List F)
    (xc : Commit F G1) (yc : Commit F G2) (t : Fin 2 → F) (w : List (Com G2) × List (Com G1) × EquType)
    (hw : proofOn (fun rng => equ.prove sch x y xc yc crs rng) t = .ok w) :
    tapeCount (N := 2) (proofOn fun rng => equ.prove sch x y xc yc crs rng) w = 1 := by
  obtain ⟨hx, hy, hxr, hyr, hd, -⟩ := (C36_msmeg1 ..).1.mp (ok_of_map hw)
  obtain ⟨u0, u1, hu, h1⟩ := first_key1 hs hg.1
  obtain ⟨v0, v1, hv, h2⟩ := first_key2 hs hg.2
  rw [MSMEG1.count_prove equ x y hx hy hd xc yc hxr hyr hu hv hw, idle_right _ (indep_first h2)]

theorem MSMEG1.count_view (equ : MSMEG1 F G1) (x : List G1) (y : List F) (hx : x ≠ []) (hy : y ≠ [])
    (hd : equ.Dims x.length y.length) (hu : crs.u.length = 2) (hv : 2 ≤ crs.v.length) {N : Nat} (hN : N = 2 * x.length + y.length + 2) {t t' : Fin N → F} {w w' : View G1 G2}
    (hw : viewOn (fun rng => equ.commitAndProve sch x y crs rng) t = .ok w)
    (hw' : viewOn (fun rng => equ.commitAndProve sch x y crs rng) t' = .ok w') (hc : w.1 = w'.1) (hc' : w.2.1 = w'.2.1) :
    tapeCount (N := N) (viewOn fun rng => equ.commitAndProve sch x y crs rng) w =
      tapeCount (N := N) (viewOn fun rng => equ.commitAndProve sch x y crs rng) w' := by
  obtain ⟨u0, u1, hu⟩ := List.length_eq_two.mp hu
  obtain ⟨v0, v1, v', hv⟩ := cons2_of_length hv
  have hm := List.length_pos_iff.mpr hx
  have hn := List.length_pos_iff.mpr hy
  obtain ⟨m, hxm⟩ : ∃ m, x.length = m := ⟨_, rfl⟩
  obtain ⟨n, hyn⟩ : ∃ n, y.length = n := ⟨_, rfl⟩
  rw [hxm] at hm hd
  rw [hyn] at hn hd
  obtain ⟨a, ha⟩ := exists_ofFn equ.a_consts hd.a
  obtain ⟨b, hb⟩ := exists_ofFn equ.b_consts hd.b
  obtain ⟨γ, hγ⟩ := rect_iff.mp (⟨hd.rows, hd.cols⟩ : Rect _ _ equ.gamma)
  obtain ⟨x, rfl⟩ := exists_ofFn x hxm
  obtain ⟨y, rfl⟩ := exists_ofFn y hyn
  simp only [List.length_ofFn] at hN
  subst hN
  exact count_views (p := 2) (q := 1) (by omega) (MSMEG1.view_eq hm hn ha hb hγ x y hu hv) hw hw' hc hc'

/-- C86, `commit_and_prove`: with any CRS, all published proofs with the same commitments are published on equally many tapes. -/
theorem C86_msmeg1_commit_and_prove (equ : MSMEG1 F G1) (x : List G1) (y : List F)
    (t t' : Fin (2 * x.length + y.length + 2) → F) (w w' : View G1 G2)
    (hw : viewOn (fun rng => equ.commitAndProve sch x y crs rng) t = .ok w)
    (hw' : viewOn (fun rng => equ.commitAndProve sch x y crs rng) t' = .ok w') (hc : w.1 = w'.1) (hc' : w.2.1 = w'.2.1) :
    tapeCount (N := 2 * x.length + y.length + 2) (viewOn fun rng => equ.commitAndProve sch x y crs rng) w =
      tapeCount (N := 2 * x.length + y.length + 2) (viewOn fun rng => equ.commitAndProve sch x y crs rng) w' := by
  obtain ⟨hx, hy, hd, hu, hv⟩ := ((C36_commit_and_prove ..).2.1 _ _ _).mp (ok_of_map hw)
  exact MSMEG1.count_view equ x y hx hy hd hu hv rfl hw hw' hc hc'

/-- The proofs of given commitments: each arises from as many random matrices as there are idle ones. -/
theorem MSMEG2.count_prove (equ : MSMEG2 F G2) (x : List F) (y : List G2) (hx : x ≠ []) (hy : y ≠ [])
    (hd : equ.Dims x.length y.length) (xc : Commit F G1) (yc : Commit F G2) (hxr : Rect x.length 1 xc.rand) (hyr : Rect y.length 2 yc.rand)
    {u0 u1 : Com G1} {v0 v1 : Com G2} {u' : List (Com G1)} (hu : crs.u = u0 :: u1 :: u') (hv : crs.v = [v0, v1])
    {t : Fin 2 → F} {w : List (Com G2) × List (Com G1) × EquType}
    (hw : proofOn (fun rng => equ.prove sch x y xc yc crs rng) t = .ok w) :
    tapeCount (N := 2) (proofOn fun rng => equ.prove sch x y xc yc crs rng) w =
      Nat.card {T : Fin 2 → Fin 1 → F // Idle ![u0] ![v0, v1] T} := by
  have hm := List.length_pos_iff.mpr hx
  have hn := List.length_pos_iff.mpr hy
  obtain ⟨m, hxm⟩ : ∃ m, x.length = m := ⟨_, rfl⟩
  obtain ⟨n, hyn⟩ : ∃ n, y.length = n := ⟨_, rfl⟩
  rw [hxm] at hm hd hxr
  rw [hyn] at hn hd hyr
  obtain ⟨a, ha⟩ := exists_ofFn equ.a_consts hd.a
  obtain ⟨b, hb⟩ := exists_ofFn equ.b_consts hd.b
  obtain ⟨γ, hγ⟩ := rect_iff.mp (⟨hd.rows, hd.cols⟩ : Rect _ _ equ.gamma)
  obtain ⟨x, rfl⟩ := exists_ofFn x hxm
  obtain ⟨y, rfl⟩ := exists_ofFn y hyn
  obtain ⟨R, hR⟩ := rect_iff.mp hxr
  obtain ⟨S, hS⟩ := rect_iff.mp hyr
  exact count_proofs (p := 1) (q := 2) rfl (fun T => MSMEG2.prove_closed hm hn ha hb hγ x y hR hS hu hv (T := T)
    (by simp [matOf, List.ofFn_succ, d1, Rng.randF]) (by simp [matOf, List.ofFn_succ, d1, Rng.randF])) hw

/-- C86, `prove`: with any CRS, all proofs that `prove` can return for given commitments are returned on equally many tapes. -/
theorem C86_msmeg2_prove (equ : MSMEG2 F G2) (x : List F) (y : List G2)
    (xc : Commit F G1) (yc : Commit F G2) (t t' : Fin 2 → F) (w w' : List (Com G2) × List (Com G1) × EquType)
    (hw : proofOn (fun rng => equ.prove sch x y xc yc crs rng) t = .ok w)
    (hw' : proofOn (fun rng => equ.prove sch x y xc yc crs rng) t' = .ok w') :
    tapeCount (N := 2) (proofOn fun rng => equ.prove sch x y xc yc crs rng) w =
      tapeCount (N := 2) (proofOn fun rng => equ.prove sch x y xc yc crs rng) w' := by
  obtain ⟨hx, hy, hxr, hyr, hd, hu, hv⟩ := (C36_msmeg2 ..).1.mp (ok_of_map hw)
  obtain ⟨u0, u1, u', hu⟩ := cons2_of_length hu
  obtain ⟨v0, v1, hv⟩ := List.length_eq_two.mp hv
  rw [MSMEG2.count_prove equ x y hx hy hd xc yc hxr hyr hu hv hw, MSMEG2.count_prove equ x y hx hy hd xc yc hxr hyr hu hv hw']

/-- C86, `prove`: on a generated or simulated CRS each such proof is returned on exactly one tape. -/
theorem C86_msmeg2_prove_count (hs : GeneratedCrs e crs ∨ SimulatedCrs e crs) (hg : crs.NonzeroGens) (equ : MSMEG2 F G2) (x : List F)
    (y : List G2)
    (xc : Commit F G1) (yc : Commit F G2) (t : Fin 2 → F) (w : List (Com G2) × List (Com G1) × EquType)
    (hw : proofOn (fun rng => equ.prove sch x y xc yc crs rng) t = .ok w) :
    tapeCount (N := 2) (proofOn fun rng => equ.prove sch x y xc yc crs rng) w = 1 := by
  obtain ⟨hx, hy, hxr, hyr, hd, -⟩ := (C36_msmeg2 ..).1.mp (ok_of_map hw)
  obtain ⟨u0, u1, hu, h1⟩ := first_key1 hs hg.1
  obtain ⟨v0, v1, hv, h2⟩ := first_key2 hs hg.2
  rw [MSMEG2.count_prove equ x y hx hy hd xc yc hxr hyr hu hv hw, idle_left (indep_first h1)]

theorem MSMEG2.count_view (equ : MSMEG2 F G2) (x : List F) (y : List G2) (hx : x ≠ []) (hy : y ≠ [])
    (hd : equ.Dims x.length y.length) (hu : 2 ≤ crs.u.length) (hv : crs.v.length = 2) {N : Nat} (hN : N = x.length + 2 * y.length + 2) {t t' : Fin N → F} {w w' : View G1 G2}
    (hw : viewOn (fun rng => equ.commitAndProve sch x y crs rng) t = .ok w)
    (hw' : viewOn (fun rng => equ.commitAndProve sch x y crs rng) t' = .ok w') (hc : w.1 = w'.1) (hc' : w.2.1 = w'.2.1) :
    tapeCount (N := N) (viewOn fun rng => equ.commitAndProve sch x y crs rng) w =
      tapeCount (N := N) (viewOn fun rng => equ.commitAndProve sch x y crs rng) w' := by
  obtain ⟨u0, u1, u', hu⟩ := cons2_of_length hu
  obtain ⟨v0, v1, hv⟩ := List.length_eq_two.mp hv
  have hm := List.length_pos_iff.mpr hx
  have hn := List.length_pos_iff.mpr hy
  obtain ⟨m, hxm⟩ : ∃ m, x.length = m := ⟨_, rfl⟩
  obtain ⟨n, hyn⟩ : ∃ n, y.length = n := ⟨_, rfl⟩
  rw [hxm] at hm hd
  rw [hyn] at hn hd
  obtain ⟨a, ha⟩ := exists_ofFn equ.a_consts hd.a
  obtain ⟨b, hb⟩ := exists_ofFn equ.b_consts hd.b
  obtain ⟨γ, hγ⟩ := rect_iff.mp (⟨hd.rows, hd.cols⟩ : Rect _ _ equ.gamma)
  obtain ⟨x, rfl⟩ := exists_ofFn x hxm
  obtain ⟨y, rfl⟩ := exists_ofFn y hyn
  simp only [List.length_ofFn] at hN
  subst hN
  exact count_views (p := 1) (q := 2) (by omega) (MSMEG2.view_eq hm hn ha hb hγ x y hu hv) hw hw' hc hc'

/-- C86, `commit_and_prove`: with any CRS, all published proofs with the same commitments are published on equally many tapes. -/
theorem C86_msmeg2_commit_and_prove (equ : MSMEG2 F G2) (x : List F) (y : List G2)
    (t t' : Fin (x.length + 2 * y.length + 2) → F) (w w' : View G1 G2)
    (hw : viewOn (fun rng => equ.commitAndProve sch x y crs rng) t = .ok w)
    (hw' : viewOn (fun rng => equ.commitAndProve sch x y crs rng) t' = .ok w') (hc : w.1 = w'.1) (hc' : w.2.1 = w'.2.1) :
    tapeCount (N := x.length + 2 * y.length + 2) (viewOn fun rng => equ.commitAndProve sch x y crs rng) w =
      tapeCount (N := x.length + 2 * y.length + 2) (viewOn fun rng => equ.commitAndProve sch x y crs rng) w' := by
  obtain ⟨hx, hy, hd, hu, hv⟩ := ((C36_commit_and_prove ..).2.2.1 _ _ _).mp (ok_of_map hw)
  exact MSMEG2.count_view equ x y hx hy hd hu hv rfl hw hw' hc hc'

/-- The proofs of given commitments: each arises from as many random matrices as there are idle ones. -/
theorem QuadEqu.count_prove (equ : QuadEqu F) (x : List F) (y : List F) (hx : x ≠ []) (hy : y ≠ [])
    (hd : equ.Dims x.length y.length) (xc : Commit F G1) (yc : Commit F G2) (hxr : Rect x.length 1 xc.rand) (hyr : Rect y.length 1 yc.rand)
    {u0 u1 : Com G1} {v0 v1 : Com G2} {u' : List (Com G1)} {v' : List (Com G2)} (hu : crs.u = u0 :: u1 :: u') (hv : crs.v = v0 :: v1 :: v')
    {t : Fin 1 → F} {w : List (Com G2) × List (Com G1) × EquType}
    (hw : proofOn (fun rng => equ.prove sch x y xc yc crs rng) t = .ok w) :
    tapeCount (N := 1) (proofOn fun rng => equ.prove sch x y xc yc crs rng) w =
      Nat.card {T : Fin 1 → Fin 1 → F // Idle ![u0] ![v0] T} := by
  have hm := List.length_pos_iff.mpr hx
  have hn := List.length_pos_iff.mpr hy
  obtain ⟨m, hxm⟩ : ∃ m, x.length = m := ⟨_, rfl⟩
  obtain ⟨n, hyn⟩ : ∃ n, y.length = n := ⟨_, rfl⟩
  rw [hxm] at hm hd hxr
  rw [hyn] at hn hd hyr
  obtain ⟨a, ha⟩ := exists_ofFn equ.a_consts hd.a
  obtain ⟨b, hb⟩ := exists_ofFn equ.b_consts hd.b
  obtain ⟨γ, hγ⟩ := rect_iff.mp (⟨hd.rows, hd.cols⟩ : Rect _ _ equ.gamma)
  obtain ⟨x, rfl⟩ := exists_ofFn x hxm
  obtain ⟨y, rfl⟩ := exists_ofFn y hyn
  obtain ⟨R, hR⟩ := rect_iff.mp hxr
  obtain ⟨S, hS⟩ := rect_iff.mp hyr
  exact count_proofs (p := 1) (q := 1) rfl (fun T => QuadEqu.prove_closed hm hn ha hb hγ x y hR hS hu hv (T := T)
    (by simp [matOf, List.ofFn_succ, d1, Rng.randF]) (by simp [matOf, List.ofFn_succ, d1, Rng.randF])) hw

/-- C86, `prove`: with any CRS, all proofs that `prove` can return for given commitments are returned on equally many tapes. -/
theorem C86_quad_prove (equ : QuadEqu F) (x : List F) (y : List F)
    (xc : Commit F G1) (yc : Commit F G2) (t t' : Fin 1 → F) (w w' : List (Com G2) × List (Com G1) × EquType)
    (hw : proofOn (fun rng => equ.prove sch x y xc yc crs rng) t = .ok w)
    (hw' : proofOn (fun rng => equ.prove sch x y xc yc crs rng) t' = .ok w') :
    tapeCount (N := 1) (proofOn fun rng => equ.prove sch x y xc yc crs rng) w =
      tapeCount (N := 1) (proofOn fun rng => equ.prove sch x y xc yc crs rng) w' := by
  obtain ⟨hx, hy, hxr, hyr, hd, hu, hv⟩ := (C36_quad ..).1.mp (ok_of_map hw)
  obtain ⟨u0, u1, u', hu⟩ := cons2_of_length hu
  obtain ⟨v0, v1, v', hv⟩ := cons2_of_length hv
  rw [QuadEqu.count_prove equ x y hx hy hd xc yc hxr hyr hu hv hw, QuadEqu.count_prove equ x y hx hy hd xc yc hxr hyr hu hv hw']

/-- C86, `prove`: on a generated or simulated CRS each such proof is returned on exactly one tape. -/
theorem C86_quad_prove_count (hs : GeneratedCrs e crs ∨ SimulatedCrs e crs) (hg : crs.NonzeroGens) (equ : QuadEqu F) (x : List F)
    (y : List F)
    (xc : Commit F G1) (yc : Commit F G2) (t : Fin 1 → F) (w : List (Com G2) × List (Com G1) × EquType)
    (hw : proofOn (fun rng => equ.prove sch x y xc yc crs rng) t = .ok w) :
    tapeCount (N := 1) (proofOn fun rng => equ.prove sch x y xc yc crs rng) w = 1 := by
  obtain ⟨hx, hy, hxr, hyr, hd, -⟩ := (C36_quad ..).1.mp (ok_of_map hw)
  obtain ⟨u0, u1, hu, h1⟩ := first_key1 hs hg.1
  obtain ⟨v0, v1, hv, h2⟩ := first_key2 hs hg.2
  rw [QuadEqu.count_prove equ x y hx hy hd xc yc hxr hyr hu hv hw, idle_right _ (indep_first h2)]

theorem QuadEqu.count_view (equ : QuadEqu F) (x : List F) (y : List F) (hx : x ≠ []) (hy : y ≠ [])
    (hd : equ.Dims x.length y.length) (hu : 2 ≤ crs.u.length) (hv : 2 ≤ crs.v.length) {N : Nat} (hN : N = x.length + y.length + 1) {t t' : Fin N → F} {w w' : View G1 G2}
    (hw : viewOn (fun rng => equ.commitAndProve sch x y crs rng) t = .ok w)
    (hw' : viewOn (fun rng => equ.commitAndProve sch x y crs rng) t' = .ok w') (hc : w.1 = w'.1) (hc' : w.2.1 = w'.2.1) :
    tapeCount (N := N) (viewOn fun rng => equ.commitAndProve sch x y crs rng) w =
      tapeCount (N := N) (viewOn fun rng => equ.commitAndProve sch x y crs rng) w' := by
  obtain ⟨u0, u1, u', hu⟩ := cons2_of_length hu
  obtain ⟨v0, v1, v', hv⟩ := cons2_of_length hv
  have hm := List.length_pos_iff.mpr hx
  have hn := List.length_pos_iff.mpr hy
  obtain ⟨m, hxm⟩ : ∃ m, x.length = m := ⟨_, rfl⟩
  obtain ⟨n, hyn⟩ : ∃ n, y.length = n := ⟨_, rfl⟩
  rw [hxm] at hm hd
  rw [hyn] at hn hd
  obtain ⟨a, ha⟩ := exists_ofFn equ.a_consts hd.a
  obtain ⟨b, hb⟩ := exists_ofFn equ.b_consts hd.b
  obtain ⟨γ, hγ⟩ := rect_iff.mp (⟨hd.rows, hd.cols⟩ : Rect _ _ equ.gamma)
  obtain ⟨x, rfl⟩ := exists_ofFn x hxm
  obtain ⟨y, rfl⟩ := exists_ofFn y hyn
  simp only [List.length_ofFn] at hN
  subst hN
  exact count_views (p := 1) (q := 1) (by omega) (QuadEqu.view_eq hm hn ha hb hγ x y hu hv) hw hw' hc hc'

/-- C86, `commit_and_prove`: with any CRS, all published proofs with the same commitments are published on equally many tapes. -/
theorem C86_quad_commit_and_prove (equ : QuadEqu F) (x : List F) (y : List F)
    (t t' : Fin (x.length + y.length + 1) → F) (w w' : View G1 G2)
    (hw : viewOn (fun rng => equ.commitAndProve sch x y crs rng) t = .ok w)
    (hw' : viewOn (fun rng => equ.commitAndProve sch x y crs rng) t' = .ok w') (hc : w.1 = w'.1) (hc' : w.2.1 = w'.2.1) :
    tapeCount (N := x.length + y.length + 1) (viewOn fun rng => equ.commitAndProve sch x y crs rng) w =
      tapeCount (N := x.length + y.length + 1) (viewOn fun rng => equ.commitAndProve sch x y crs rng) w' := by
  obtain ⟨hx, hy, hd, hu, hv⟩ := ((C36_commit_and_prove ..).2.2.2 _ _ _).mp (ok_of_map hw)
  exact QuadEqu.count_view equ x y hx hy hd hu hv rfl hw hw' hc hc'

/-- On every tape `prove` returns a proof, and with the generated `crs7` each such proof is returned on 7 of the 7⁴ tapes. -/
example (sch : Nat → Scheduler) (t : Fin 4 → Ex.K) :
    ∃ w, proofOn (fun rng => Ex.ppe7.prove sch [2] [3, 4] ⟨[], [[5, 6]]⟩ ⟨[], [[1, 2], [3, 4]]⟩ Ex.crs7 rng) t = .ok w ∧
      tapeCount (N := 4) (proofOn fun rng => Ex.ppe7.prove sch [2] [3, 4] ⟨[], [[5, 6]]⟩ ⟨[], [[1, 2], [3, 4]]⟩ Ex.crs7 rng) w = 7 := by
  obtain ⟨r, hr⟩ := (C36_ppe sch Ex.crs7 (List.ofFn t) ⟨[], [[5, 6]]⟩ ⟨[], [[1, 2], [3, 4]]⟩ Ex.ppe7 [2] [3, 4]).1.mpr
    ⟨by simp, by simp, ⟨rfl, by simp⟩, ⟨rfl, by simp⟩, Ex.ppe7_dims, rfl, rfl⟩
  have hw : proofOn (fun rng => Ex.ppe7.prove sch [2] [3, 4] ⟨[], [[5, 6]]⟩ ⟨[], [[1, 2], [3, 4]]⟩ Ex.crs7 rng) t =
      .ok (r.1.pi, r.1.theta, r.1.equ_type) := by
    rw [proofOn, hr]
    rfl
  exact ⟨_, hw, ((C86_ppe_prove_count Ex.crs7_nonzero Ex.ppe7 [2] [3, 4] _ _ t _ hw).1 Ex.crs7_generated).trans (Nat.card_zmod 7)⟩

/-- The commitment `⟨0, 2⟩` to 2 is returned on 7 of the 49 tapes, and on none as a commitment to 3. -/
example : tapeCount (N := 2) (comsOn fun rng => batchCommitG1 (F := Ex.K) [2] Ex.crs7 rng) [⟨0, 2⟩] = 7 ∧
    tapeCount (N := 2) (comsOn fun rng => batchCommitG1 (F := Ex.K) [3] Ex.crs7 rng) [⟨0, 2⟩] = 0 := by
  constructor
  · exact (((C86_commit_G1 (e := Ex.e7) Ex.crs7_nonzero.1 [2] (by simp)).1 Ex.crs7_generated _).1
      (.cons ⟨_, _, [], rfl, (0, 0), by simp [groupCom]⟩ .nil)).trans ((pow_one _).trans (Nat.card_zmod 7))
  · refine ((C86_commit_G1 (e := Ex.e7) Ex.crs7_nonzero.1 [3] (by simp)).1 Ex.crs7_generated _).2 fun h => ?_
    cases h with
    | cons h _ =>
      obtain ⟨u0, u1, u', hu, r, hr⟩ := h
      cases hu
      revert hr
      obtain ⟨r, s⟩ := r
      revert r s
      decide

/-- Two different proofs with the same commitments. -/
example : ∃ (t t' : Fin (2 * 1 + 2 * 2 + 4) → Ex.K) (w w' : View Ex.K Ex.K),
    viewOn (fun rng => Ex.ppe7.commitAndProve (fun _ => forwards) [2] [3, 4] Ex.crs7 rng) t = .ok w ∧
    viewOn (fun rng => Ex.ppe7.commitAndProve (fun _ => forwards) [2] [3, 4] Ex.crs7 rng) t' = .ok w' ∧
    w.1 = w'.1 ∧ w.2.1 = w'.2.1 ∧ w.2.2.map (·.1) ≠ w'.2.2.map (·.1) :=
  ⟨fun _ => 0, fun i => if i = 9 then 1 else 0, _, _, rfl, rfl, by decide, by decide, by decide⟩

/-! ### Instances -/

namespace Ex

example := (C86_commit_B1 (e := e7) (crs := crs7) (.inl crs7_generated) crs7_nonzero.1 [2] (by simp) _).1
  (.cons ⟨_, _, [], rfl, 3, rfl⟩ .nil)
example := (C86_commit_B2 (e := e7) (crs := sim7) (.inr sim7_simulated) sim7_nonzero.2 [2] (by simp) _).1
  (.cons ⟨_, _, [], rfl, 3, rfl⟩ .nil)
example := ((C86_commit_G2 (e := e7) crs7_nonzero.2 [2] (by simp)).1 crs7_generated _).1
  (.cons ⟨_, _, [], rfl, (3, 4), rfl⟩ .nil)
example := (C86_commit_G2 (e := e7) sim7_nonzero.2 [2] (by simp)).2 prime7 sim7_simulated [⟨3, 4⟩] rfl

example := C86_ppe_prove (crs := crs7) (sch := fun _ => forwards) ppe7 [2] [3, 4] ⟨[], [[5, 6]]⟩ ⟨[], [[1, 2], [3, 4]]⟩ (fun _ => 0) (fun _ => 1) _ _ rfl rfl
example := C86_ppe_commit_and_prove (crs := crs7) (sch := fun _ => forwards) ppe7 [2] [3, 4] (fun _ => 0) (fun i => if i.val = 9 then 1 else 0) _ _
  rfl rfl rfl rfl
example := C86_msmeg1_prove (crs := crs7) (sch := fun _ => forwards) msm1_7 [2] [3, 4] ⟨[], [[5, 6]]⟩ ⟨[], [[1], [3]]⟩ (fun _ => 0) (fun _ => 1) _ _ rfl rfl
example := C86_msmeg1_commit_and_prove (crs := crs7) (sch := fun _ => forwards) msm1_7 [2] [3, 4] (fun _ => 0) (fun i => if i.val = 5 then 1 else 0) _ _
  rfl rfl rfl rfl
example := C86_msmeg1_prove_count (e := e7) (crs := crs7) (sch := fun _ => forwards) (.inl crs7_generated) crs7_nonzero msm1_7 [2] [3, 4] ⟨[], [[5, 6]]⟩ ⟨[], [[1], [3]]⟩
  (fun _ => 1) _ rfl
example := C86_msmeg2_prove (crs := crs7) (sch := fun _ => forwards) msm2_7 [2] [3, 4] ⟨[], [[5]]⟩ ⟨[], [[1, 2], [3, 4]]⟩ (fun _ => 0) (fun _ => 1) _ _ rfl rfl
example := C86_msmeg2_commit_and_prove (crs := crs7) (sch := fun _ => forwards) msm2_7 [2] [3, 4] (fun _ => 0) (fun i => if i.val = 6 then 1 else 0) _ _
  rfl rfl rfl rfl
example := C86_msmeg2_prove_count (e := e7) (crs := crs7) (sch := fun _ => forwards) (.inl crs7_generated) crs7_nonzero msm2_7 [2] [3, 4] ⟨[], [[5]]⟩ ⟨[], [[1, 2], [3, 4]]⟩
  (fun _ => 1) _ rfl
example := C86_quad_prove (crs := crs7) (sch := fun _ => forwards) quad7 [2] [3, 4] ⟨[], [[5]]⟩ ⟨[], [[1], [3]]⟩ (fun _ => 0) (fun _ => 1) _ _ rfl rfl
example := C86_quad_commit_and_prove (crs := crs7) (sch := fun _ => forwards) quad7 [2] [3, 4] (fun _ => 0) (fun i => if i.val = 3 then 1 else 0) _ _
  rfl rfl rfl rfl
example := C86_quad_prove_count (e := e7) (crs := crs7) (sch := fun _ => forwards) (.inl crs7_generated) crs7_nonzero quad7 [2] [3, 4] ⟨[], [[5]]⟩ ⟨[], [[1], [3]]⟩
  (fun _ => 1) _ rfl

end Ex

end GS
