import Verif.Spec.ComGame
import Verif.Lemmas.Games
import Verif.Props.Hiding
import Verif.Props.Mirror

/-!
# C85: commitments on one side hide their values if DDH is hard in the group of that side
-/

set_option linter.unusedSectionVars false

open scoped BigOperators

namespace GS
variable {F G1 G2 GT : Type} [Field F] [AddCommGroup G1] [Module F G1] [AddCommGroup G2] [Module F G2]
  [AddCommGroup GT] [Module F GT] {e : G1 →ₗ[F] G2 →ₗ[F] GT} {crs : CRS G1 G2 GT}

/-- Commitments to group elements under a hiding key. -/
theorem sameComs_group {u0 u1 : Com G1} {a t : F} (hu : crs.u = [u0, u1]) (ku : HidingKey crs.g1_gen a t u0 u1) (x x' : List G1)
    (hx : x ≠ []) (hl : x'.length = x.length) : SameViews (N := 2 * x.length)
      (comsOn fun rng => batchCommitG1 (F := F) x crs rng) (comsOn fun rng => batchCommitG1 (F := F) x' crs rng) := by
  have hm := List.length_pos_iff.mpr hx
  obtain ⟨m, hxm⟩ : ∃ m, x.length = m := ⟨_, rfl⟩
  rw [hxm] at hm hl
  rw [hxm]
  obtain ⟨x, rfl⟩ := exists_ofFn x hxm
  obtain ⟨x', rfl⟩ := exists_ofFn x' hl
  exact sameComs (p := 2) (by omega) ku.indep2 (x := fun i => ⟨0, x i⟩) (x' := fun i => ⟨0, x' i⟩)
    (fun _ => ku.span2 _) (fun _ => ku.span2 _)
    (fun t R ht => comsOn_ok ht (batchCommitG1_draws hm x hu (draws_flatten R (by omega))) (groupCom_sum u0 u1 x R))
    (fun t R ht => comsOn_ok ht (batchCommitG1_draws hm x' hu (draws_flatten R (by omega))) (groupCom_sum u0 u1 x' R))

/-- Commitments to scalars under a hiding key. -/
theorem sameComs_scalar {u0 u1 : Com G1} {a t : F} (hu : crs.u = [u0, u1]) (ku : HidingKey crs.g1_gen a t u0 u1) (x x' : List F)
    (hx : x ≠ []) (hl : x'.length = x.length) : SameViews (N := x.length)
      (comsOn fun rng => batchCommitScalarToB1 x crs rng) (comsOn fun rng => batchCommitScalarToB1 x' crs rng) := by
  have hm := List.length_pos_iff.mpr hx
  obtain ⟨m, hxm⟩ : ∃ m, x.length = m := ⟨_, rfl⟩
  rw [hxm] at hm hl
  rw [hxm]
  obtain ⟨x, rfl⟩ := exists_ofFn x hxm
  obtain ⟨x', rfl⟩ := exists_ofFn x' hl
  exact sameComs (p := 1) (by omega) ku.indep1 (x := fun i => x i • (u1 + ⟨0, crs.g1_gen⟩)) (x' := fun i => x' i • (u1 + ⟨0, crs.g1_gen⟩))
    (fun _ => ku.span1 _) (fun _ => ku.span1 _)
    (fun t R ht => comsOn_ok ht (batchCommitB1_draws hm x hu (draws_flatten R (by omega))) (scalarCom_sum u0 u1 crs.g1_gen x R))
    (fun t R ht => comsOn_ok ht (batchCommitB1_draws hm x' hu (draws_flatten R (by omega))) (scalarCom_sum u0 u1 crs.g1_gen x' R))

section games
variable [Fintype F] [Fintype G1] [Fintype G2]

theorem SameViews.comGame {G : Type} {N : Nat} {run run' : List F → Res (Commit F G × List F)}
    (h : SameViews (N := N) (comsOn run) (comsOn run')) (D : Res (List (Com G)) → ℝ) :
    comGame (N := N) run D = GS.comGame (N := N) run' D := by
  obtain ⟨φ, hφ⟩ := h
  refine Fintype.expect_equiv φ _ _ fun t => ?_
  obtain ⟨v, h1, h2⟩ := hφ t
  rw [h1, h2]

theorem comGame_mem {G : Type} {N : Nat} (run : List F → Res (Commit F G × List F)) {D : Res (List (Com G)) → ℝ}
    (h : ∀ v, 0 ≤ D v ∧ D v ≤ 1) : 0 ≤ comGame (N := N) run D ∧ comGame (N := N) run D ≤ 1 :=
  ⟨Finset.expect_nonneg fun _ _ => (h _).1, Finset.expect_le Finset.univ_nonempty fun _ _ => (h _).2⟩

theorem comGame_sub {G : Type} {N N' : Nat} (run run' : List F → Res (Commit F G × List F)) {D : Res (List (Com G)) → ℝ}
    (h : ∀ v, 0 ≤ D v ∧ D v ≤ 1) : |comGame (N := N) run D - comGame (N := N') run' D| ≤ 1 := by
  have k1 := comGame_mem (N := N) run h
  have k2 := comGame_mem (N := N') run' h
  rw [abs_le]
  constructor <;> linarith

/-- Only the key in `G1` is replaced. -/
theorem one_sided (D D' : CRS G1 G2 GT → ℝ)
    (h : ∀ crs : CRS G1 G2 GT, ∀ (a t : F) u0 u1, crs.g1_gen ≠ 0 → crs.u = [u0, u1] → u0 = ⟨crs.g1_gen, a • crs.g1_gen⟩ →
      u1 = ⟨t • crs.g1_gen, t • a • crs.g1_gen - crs.g1_gen⟩ → D crs = D' crs)
    (hb : ∀ crs, |D crs - D' crs| ≤ 1) :
    |bindingGame e D - bindingGame e D'| ≤ ddhAdv1 e D + ddhAdv1 e D' + 1 / Fintype.card G1 := by
  classical
  have h1 := ddh_hybrid (F := F) (reduce1 e D)
  have h2 := ddh_hybrid (F := F) (reduce1 e D')
  rw [← crsGame_binding] at h1 h2
  have h3 : |ddhReal F (lower (reduce1 e D)) - ddhReal F (lower (reduce1 e D'))| ≤ 1 / Fintype.card G1 := by
    rw [← expect_zero_indicator (G := G1)]
    have hc : ∀ (X : Type) [Fintype X] [Nonempty X] (c : ℝ), c = 𝔼 _x : X, c := fun X _ _ c => (Fintype.expect_const c).symm
    refine abs_expect_sub_le _ _ _ fun p1 => ?_
    rw [hc F (if p1 = 0 then (1 : ℝ) else 0)]
    refine abs_expect_sub_le _ _ _ fun a1 => ?_
    rw [hc F (if p1 = 0 then (1 : ℝ) else 0)]
    refine abs_expect_sub_le _ _ _ fun t1 => ?_
    rw [hc G2 (if p1 = 0 then (1 : ℝ) else 0)]
    refine abs_expect_sub_le _ _ _ fun p2 => ?_
    rw [hc F (if p1 = 0 then (1 : ℝ) else 0)]
    refine abs_expect_sub_le _ _ _ fun a2 => ?_
    rw [hc F (if p1 = 0 then (1 : ℝ) else 0)]
    refine abs_expect_sub_le _ _ _ fun t2 => ?_
    by_cases hp : p1 = 0
    · rw [if_pos hp]
      exact hb _
    · rw [if_neg hp, h _ a1 t1 _ _ hp rfl rfl rfl]
      simp
  rw [abs_le] at *
  simp only [ddhAdv1]
  constructor <;> linarith

/-- The CRS of the exchanged groups is equally distributed. -/
theorem bindingGame_mirror (D : CRS G1 G2 GT → ℝ) : bindingGame e D = bindingGame e.flip fun crs => D crs.mirror := by
  rw [crsGame_binding, crsGame_binding]
  unfold ddhReal reduce1
  exact (expect_reorder' fun p1 p2 a1 a2 t1 t2 => D (crsOf e p1 (a1 • p1) (t1 • p1) (t1 • a1 • p1) p2 (a2 • p2) (t2 • p2)
    (t2 • a2 • p2))).symm

/-- C85: with the CRS of `generate_crs`, an adversary that sees the CRS, chooses two lists of equal lengths and
distinguishes the commitments to one in `G1` from those to the other breaks DDH in `G1`; nothing is assumed about DDH in `G2`. -/
theorem C85_G1 (he : PrimeGroups e) (x x' : CRS G1 G2 GT → List G1) (hl : ∀ crs, (x' crs).length = (x crs).length)
    (D : CRS G1 G2 GT → Res (List (Com G1)) → ℝ) (hD : ∀ crs v, 0 ≤ D crs v ∧ D crs v ≤ 1) :
    let D1 := fun crs => comGame (N := 2 * (x crs).length) (fun rng => batchCommitG1 (F := F) (x crs) crs rng) (D crs)
    let D2 := fun crs => comGame (N := 2 * (x crs).length) (fun rng => batchCommitG1 (F := F) (x' crs) crs rng) (D crs)
    |bindingGame e D1 - bindingGame e D2| ≤ ddhAdv1 e D1 + ddhAdv1 e D2 + 1 / Fintype.card G1 := by
  intro D1 D2
  refine one_sided D1 D2 (fun crs a t u0 u1 hg hu h0 h1 => ?_) fun crs => comGame_sub _ _ (hD crs)
  by_cases hx : x crs = []
  · have hx' : x' crs = [] := List.length_eq_zero_iff.mp (by rw [hl, hx]; rfl)
    simp only [D1, D2, hx, hx']
  · exact (sameComs_group hu ⟨hg, he.cyclic1 _ hg, h0, h1⟩ _ _ hx (hl crs)).comGame _

/-- C85, scalars in `G1`. -/
theorem C85_B1 (he : PrimeGroups e) (x x' : CRS G1 G2 GT → List F) (hl : ∀ crs, (x' crs).length = (x crs).length)
    (D : CRS G1 G2 GT → Res (List (Com G1)) → ℝ) (hD : ∀ crs v, 0 ≤ D crs v ∧ D crs v ≤ 1) :
    let D1 := fun crs => comGame (N := (x crs).length) (fun rng => batchCommitScalarToB1 (x crs) crs rng) (D crs)
    let D2 := fun crs => comGame (N := (x crs).length) (fun rng => batchCommitScalarToB1 (x' crs) crs rng) (D crs)
    |bindingGame e D1 - bindingGame e D2| ≤ ddhAdv1 e D1 + ddhAdv1 e D2 + 1 / Fintype.card G1 := by
  intro D1 D2
  refine one_sided D1 D2 (fun crs a t u0 u1 hg hu h0 h1 => ?_) fun crs => comGame_sub _ _ (hD crs)
  by_cases hx : x crs = []
  · have hx' : x' crs = [] := List.length_eq_zero_iff.mp (by rw [hl, hx]; rfl)
    simp only [D1, D2, hx, hx']
  · exact (sameComs_scalar hu ⟨hg, he.cyclic1 _ hg, h0, h1⟩ _ _ hx (hl crs)).comGame _

/-- C85: the same for `G2`; nothing is assumed about DDH in `G1`. -/
theorem C85_G2 (he : PrimeGroups e) (y y' : CRS G1 G2 GT → List G2) (hl : ∀ crs, (y' crs).length = (y crs).length)
    (D : CRS G1 G2 GT → Res (List (Com G2)) → ℝ) (hD : ∀ crs v, 0 ≤ D crs v ∧ D crs v ≤ 1) :
    let D1 := fun crs => comGame (N := 2 * (y crs).length) (fun rng => batchCommitG2 (F := F) (y crs) crs rng) (D crs)
    let D2 := fun crs => comGame (N := 2 * (y crs).length) (fun rng => batchCommitG2 (F := F) (y' crs) crs rng) (D crs)
    |bindingGame e D1 - bindingGame e D2| ≤ ddhAdv2 e D1 + ddhAdv2 e D2 + 1 / Fintype.card G2 := by
  intro D1 D2
  rw [bindingGame_mirror D1, bindingGame_mirror D2]
  exact C85_G1 he.flip (fun crs => y crs.mirror) (fun crs => y' crs.mirror) (fun crs => hl _) (fun crs => D crs.mirror) fun crs => hD _

/-- C85, scalars in `G2`. -/
theorem C85_B2 (he : PrimeGroups e) (y y' : CRS G1 G2 GT → List F) (hl : ∀ crs, (y' crs).length = (y crs).length)
    (D : CRS G1 G2 GT → Res (List (Com G2)) → ℝ) (hD : ∀ crs v, 0 ≤ D crs v ∧ D crs v ≤ 1) :
    let D1 := fun crs => comGame (N := (y crs).length) (fun rng => batchCommitScalarToB2 (y crs) crs rng) (D crs)
    let D2 := fun crs => comGame (N := (y crs).length) (fun rng => batchCommitScalarToB2 (y' crs) crs rng) (D crs)
    |bindingGame e D1 - bindingGame e D2| ≤ ddhAdv2 e D1 + ddhAdv2 e D2 + 1 / Fintype.card G2 := by
  intro D1 D2
  rw [bindingGame_mirror D1, bindingGame_mirror D2]
  exact C85_B1 he.flip (fun crs => y crs.mirror) (fun crs => y' crs.mirror) (fun crs => hl _) (fun crs => D crs.mirror) fun crs => hD _

example (D : CRS Ex.K Ex.K Ex.K → Res (List (Com Ex.K)) → ℝ) (hD : ∀ crs v, 0 ≤ D crs v ∧ D crs v ≤ 1) :=
  C85_G2 Ex.prime7 (fun crs => [crs.g2_gen, 3]) (fun _ => [5, 0]) (fun _ => rfl) D hD

end games

/-! ### Instances -/

namespace Ex

example (D : CRS K K K → Res (List (Com K)) → ℝ) (hD : ∀ crs v, 0 ≤ D crs v ∧ D crs v ≤ 1) :=
  C85_G1 prime7 (fun crs => [crs.g2_gen, 3]) (fun _ => [5, 0]) (fun _ => rfl) D hD
example (D : CRS K K K → Res (List (Com K)) → ℝ) (hD : ∀ crs v, 0 ≤ D crs v ∧ D crs v ≤ 1) :=
  C85_B1 prime7 (fun crs => [crs.g2_gen, 3]) (fun _ => [5, 0]) (fun _ => rfl) D hD
example (D : CRS K K K → Res (List (Com K)) → ℝ) (hD : ∀ crs v, 0 ≤ D crs v ∧ D crs v ≤ 1) :=
  C85_B2 prime7 (fun crs => [crs.g2_gen, 3]) (fun _ => [5, 0]) (fun _ => rfl) D hD

end Ex

end GS
