import Verif.Lemmas.Games
import Verif.Props.Simulation

/-!
# C51, C56, C57: computational statements about the CRS that `generate_crs` really returns

The distinguishers `D` are arbitrary functions. Each bound is a sum of advantages `ddhAdv` of explicit algorithms
that call `D` once (`reduce1`, `reduce2`, `lower`, in `Verif/Spec/Games.lean`), plus the probability of drawing a zero
generator.
-/

set_option linter.unusedSectionVars false

open scoped BigOperators

namespace GS
variable {F G1 G2 GT : Type} [Field F] [AddCommGroup G1] [Module F G1] [AddCommGroup G2] [Module F G2]
  [AddCommGroup GT] [Module F GT] [Fintype F] [Fintype G1] [Fintype G2] {e : G1 →ₗ[F] G2 →ₗ[F] GT}

/-- C51: a distinguisher between the output of `generate_crs` and the CRS with simulated keys has at most the sum of
the advantages of two DDH distinguishers in `G1` and two in `G2`. -/
theorem C51_crs_indistinguishable (D : CRS G1 G2 GT → ℝ) :
    |bindingGame e D - hidingGame e D| ≤
      ddhAdv F (reduce1 e D) + ddhAdv F (lower (reduce1 e D)) + ddhAdv F (reduce2 e D) + ddhAdv F (lower (reduce2 e D)) :=
  crs_hybrid D

/-- C51: the four DDH distinguishers output probabilities if `D` does. -/
theorem C51_reductions (D : CRS G1 G2 GT → ℝ) (h : ∀ crs, 0 ≤ D crs ∧ D crs ≤ 1) :
    (∀ p q u w, 0 ≤ reduce1 e D p q u w ∧ reduce1 e D p q u w ≤ 1) ∧
    (∀ p q u w, 0 ≤ lower (reduce1 e D) p q u w ∧ lower (reduce1 e D) p q u w ≤ 1) ∧
    (∀ p q u w, 0 ≤ reduce2 e D p q u w ∧ reduce2 e D p q u w ≤ 1) ∧
    (∀ p q u w, 0 ≤ lower (reduce2 e D) p q u w ∧ lower (reduce2 e D) p q u w ≤ 1) := by
  have key : ∀ {X : Type} [Fintype X] [Nonempty X] (f : X → ℝ), (∀ x, 0 ≤ f x ∧ f x ≤ 1) →
      0 ≤ (𝔼 x, f x) ∧ (𝔼 x, f x) ≤ 1 := fun f hf =>
    ⟨Finset.expect_nonneg fun _ _ => (hf _).1, Finset.expect_le Finset.univ_nonempty fun _ _ => (hf _).2⟩
  have h1 : ∀ p q u w, 0 ≤ reduce1 e D p q u w ∧ reduce1 e D p q u w ≤ 1 := fun p q u w =>
    key _ fun _ => key _ fun _ => key _ fun _ => h _
  have h2 : ∀ p q u w, 0 ≤ reduce2 e D p q u w ∧ reduce2 e D p q u w ≤ 1 := fun p q u w =>
    key _ fun _ => key _ fun _ => key _ fun _ => h _
  exact ⟨h1, fun _ _ _ _ => h1 _ _ _ _, h2, fun _ _ _ _ => h2 _ _ _ _⟩

/-- The distinguisher that (inefficiently) decides whether the second key element of `G1` is a multiple of the first. -/
noncomputable def dependentKey (F : Type) {G1 G2 GT : Type} [Field F] [AddCommGroup G1] [Module F G1]
    (crs : CRS G1 G2 GT) : ℝ := by
  classical exact if ∃ t : F, crs.u[1]? = crs.u[0]?.map fun c => c.scalarMul t then 1 else 0

/-- C51: the assumption is needed; the two kinds of CRS are told apart by `dependentKey` except when a zero generator
is drawn. -/
theorem C51_not_statistical :
    bindingGame e (dependentKey F) = 1 ∧ hidingGame e (dependentKey F) = 1 / Fintype.card G1 := by
  classical
  constructor
  · have h : ∀ (p1 : G1) (p2 : G2) (a1 a2 t1 t2 : F),
        dependentKey F (generateCrs e ([p1], [p2], [a1, a2, t1, t2])).1 = 1 := by
      intro p1 p2 a1 a2 t1 t2
      refine if_pos ⟨t1, ?_⟩
      have : (generateCrs e ([p1], [p2], [a1, a2, t1, t2])).1 = _ := assembleReal_eq e p1 p2 a1 a2 t1 t2
      rw [this]
      rfl
    simp only [bindingGame, h, Fintype.expect_const]
  · have h : ∀ (p1 : G1) (p2 : G2) (a1 a2 t1 t2 : F),
        dependentKey F (assembleCrs e prepareSimulatedHidingKey p1 p2 a1 a2 t1 t2) = if p1 = 0 then 1 else 0 := by
      intro p1 p2 a1 a2 t1 t2
      rw [assembleSim_eq]
      unfold dependentKey
      split_ifs with h1 h2 h2
      · rfl
      · exfalso
        obtain ⟨t, ht⟩ := h1
        apply h2
        have h0 : t1 • p1 = t • p1 := congrArg Com.c0 (Option.some.inj ht)
        have h1 : t1 • a1 • p1 - p1 = t • a1 • p1 := congrArg Com.c1 (Option.some.inj ht)
        rw [smul_comm t1, h0, smul_comm a1 t] at h1
        simpa using h1
      · exact absurd ⟨0, by simp [h2, Com.scalarMul]⟩ h1
      · rfl
    simp only [hidingGame, trapdoorGame, h, Fintype.expect_const]
    exact expect_zero_indicator

example : bindingGame Ex.e7 (dependentKey Ex.K) - hidingGame Ex.e7 (dependentKey Ex.K) = 6 / 7 := by
  rw [C51_not_statistical.1, C51_not_statistical.2, ZMod.card]
  norm_num

/-- One experiment: replace the CRS of `generate_crs` by the simulated one, use that the two runs have the same
views there, and go back. -/
theorem computational_wi {N N' : Nat} (run run' : CRS G1 G2 GT → List F → Res (CProof F G1 G2 × List F))
    (D : CRS G1 G2 GT → Res (View G1 G2) → ℝ) (hD : ∀ crs v, 0 ≤ D crs v ∧ D crs v ≤ 1)
    (h : ∀ crs : CRS G1 G2 GT, SimulatedCrs e crs → crs.NonzeroGens →
      viewGame (N := N) (run crs) (D crs) = viewGame (N := N') (run' crs) (D crs)) :
    |bindingGame e (fun crs => viewGame (N := N) (run crs) (D crs)) -
      bindingGame e (fun crs => viewGame (N := N') (run' crs) (D crs))| ≤
    sxdhAdv e (fun crs => viewGame (N := N) (run crs) (D crs)) +
      sxdhAdv e (fun crs => viewGame (N := N') (run' crs) (D crs)) + (1 / Fintype.card G1 + 1 / Fintype.card G2) := by
  have h1 := crs_hybrid (e := e) fun crs => viewGame (N := N) (run crs) (D crs)
  have h2 := crs_hybrid (e := e) fun crs => viewGame (N := N') (run' crs) (D crs)
  have h3 := trapdoorGame_close (e := e) (fun crs _ _ => viewGame (N := N) (run crs) (D crs))
    (fun crs _ _ => viewGame (N := N') (run' crs) (D crs)) (by
      intro p1 p2 a1 a2 t1 t2 z1 z2
      exact h _ ⟨p1, p2, a1, a2, t1, t2, rfl⟩ ⟨z1, z2⟩) (by
      intro crs _ _
      have k1 := viewGame_mem (N := N) (run crs) (hD crs)
      have k2 := viewGame_mem (N := N') (run' crs) (hD crs)
      rw [abs_le]
      constructor <;> linarith)
  rw [abs_le] at *
  simp only [hidingGame] at h1 h2
  constructor <;> linarith

/-- One experiment: replace the CRS of `generate_crs` by the simulated one and then the prover by the simulator. -/
theorem computational_zk {N : Nat} (run : CRS G1 G2 GT → List F → Res (CProof F G1 G2 × List F))
    (sim : CRS G1 G2 GT → F → F → List F → Res (CProof F G1 G2 × List F))
    (D : CRS G1 G2 GT → Res (View G1 G2) → ℝ) (hD : ∀ crs v, 0 ≤ D crs v ∧ D crs v ≤ 1)
    (h : ∀ p1 p2 (a1 a2 t1 t2 : F), p1 ≠ 0 → p2 ≠ 0 →
      SameViews (N := N) (viewOn (run (assembleCrs e prepareSimulatedHidingKey p1 p2 a1 a2 t1 t2)))
        (viewOn (sim (assembleCrs e prepareSimulatedHidingKey p1 p2 a1 a2 t1 t2) t1 t2))) :
    |bindingGame e (fun crs => viewGame (N := N) (run crs) (D crs)) -
      trapdoorGame e (fun crs t1 t2 => viewGame (N := N) (sim crs t1 t2) (D crs))| ≤
    sxdhAdv e (fun crs => viewGame (N := N) (run crs) (D crs)) + (1 / Fintype.card G1 + 1 / Fintype.card G2) := by
  have h1 := crs_hybrid (e := e) fun crs => viewGame (N := N) (run crs) (D crs)
  have h3 := trapdoorGame_close (e := e) (fun crs _ _ => viewGame (N := N) (run crs) (D crs))
    (fun crs t1 t2 => viewGame (N := N) (sim crs t1 t2) (D crs)) (by
      intro p1 p2 a1 a2 t1 t2 z1 z2
      exact (h _ _ _ _ _ _ z1 z2).game _) (by
      intro crs t1 t2
      have k1 := viewGame_mem (N := N) (run crs) (hD crs)
      have k2 := viewGame_mem (N := N) (sim crs t1 t2) (hD crs)
      rw [abs_le]
      constructor <;> linarith)
  rw [abs_le] at *
  simp only [hidingGame] at h1
  constructor <;> linarith

/-- C56: with the CRS of `generate_crs`, whoever distinguishes PPE proofs for two satisfying witnesses breaks DDH. -/
theorem C56_ppe (he : PrimeGroups e) (equ : PPE F G1 G2 GT) (x x' : List G1) (y y' : List G2) (hx : x ≠ []) (hy : y ≠ [])
    (hd : equ.Dims x.length y.length) (hlx : x'.length = x.length) (hly : y'.length = y.length)
    (h : equ.Holds e x y) (h' : equ.Holds e x' y') (sch sch' : Nat → Scheduler)
    (D : CRS G1 G2 GT → Res (View G1 G2) → ℝ) (hD : ∀ crs v, 0 ≤ D crs v ∧ D crs v ≤ 1) :
    let D1 := fun crs : CRS G1 G2 GT =>
      viewGame (N := 2 * x.length + 2 * y.length + 4) (fun rng => equ.commitAndProve sch x y crs rng) (D crs)
    let D2 := fun crs : CRS G1 G2 GT =>
      viewGame (N := 2 * x.length + 2 * y.length + 4) (fun rng => equ.commitAndProve sch' x' y' crs rng) (D crs)
    |bindingGame e D1 - bindingGame e D2| ≤
      sxdhAdv e D1 + sxdhAdv e D2 + (1 / Fintype.card G1 + 1 / Fintype.card G2) :=
  computational_wi (fun crs rng => equ.commitAndProve sch x y crs rng)
    (fun crs rng => equ.commitAndProve sch' x' y' crs rng) D hD fun _ hs hg =>
      (C13_ppe he hs hg equ x x' y y' hx hy hd hlx hly h h' sch sch').game _

example (sch : Nat → Scheduler) (D : CRS Ex.K Ex.K Ex.K → Res (View Ex.K Ex.K) → ℝ)
    (hD : ∀ crs v, 0 ≤ D crs v ∧ D crs v ≤ 1) :=
  C56_ppe Ex.prime7 Ex.ppe7 [2] [0] [3, 4] [1, 0] (by simp) (by simp) Ex.ppe7_dims rfl rfl
    Ex.ppe7_holds Ex.ppe7_holds' sch sch D hD

/-- C56: with the CRS of `generate_crs`, whoever distinguishes MSMEG1 proofs for two satisfying witnesses breaks DDH. -/
theorem C56_msmeg1 (he : PrimeGroups e) (equ : MSMEG1 F G1) (x x' : List G1) (y y' : List F) (hx : x ≠ []) (hy : y ≠ [])
    (hd : equ.Dims x.length y.length) (hlx : x'.length = x.length) (hly : y'.length = y.length)
    (h : equ.Holds x y) (h' : equ.Holds x' y') (sch sch' : Nat → Scheduler)
    (D : CRS G1 G2 GT → Res (View G1 G2) → ℝ) (hD : ∀ crs v, 0 ≤ D crs v ∧ D crs v ≤ 1) :
    let D1 := fun crs : CRS G1 G2 GT =>
      viewGame (N := 2 * x.length + y.length + 2) (fun rng => equ.commitAndProve sch x y crs rng) (D crs)
    let D2 := fun crs : CRS G1 G2 GT =>
      viewGame (N := 2 * x.length + y.length + 2) (fun rng => equ.commitAndProve sch' x' y' crs rng) (D crs)
    |bindingGame e D1 - bindingGame e D2| ≤
      sxdhAdv e D1 + sxdhAdv e D2 + (1 / Fintype.card G1 + 1 / Fintype.card G2) :=
  computational_wi (fun crs rng => equ.commitAndProve sch x y crs rng)
    (fun crs rng => equ.commitAndProve sch' x' y' crs rng) D hD fun _ hs hg =>
      (C14_msmeg1 he hs hg equ x x' y y' hx hy hd hlx hly h h' sch sch').game _

example (sch : Nat → Scheduler) (D : CRS Ex.K Ex.K Ex.K → Res (View Ex.K Ex.K) → ℝ)
    (hD : ∀ crs v, 0 ≤ D crs v ∧ D crs v ≤ 1) :=
  C56_msmeg1 Ex.prime7 Ex.msm1_7 [2] [0] [3, 4] [1, 0] (by simp) (by simp) Ex.msm1_7_dims rfl rfl
    Ex.msm1_7_holds Ex.msm1_7_holds' sch sch D hD

/-- C57: MSMEG1 proofs under the CRS of `generate_crs` are computationally indistinguishable from the output of a simulator
that has no witness, together with a CRS of which it knows the trapdoors. -/
theorem C57_msmeg1 (he : PrimeGroups e) (equ : MSMEG1 F G1) (x : List G1) (y : List F) (hx : x ≠ []) (hy : y ≠ [])
    (hd : equ.Dims x.length y.length) (h : equ.Holds x y) (sch : Nat → Scheduler)
    (D : CRS G1 G2 GT → Res (View G1 G2) → ℝ) (hD : ∀ crs v, 0 ≤ D crs v ∧ D crs v ≤ 1) :
    let D1 := fun crs : CRS G1 G2 GT =>
      viewGame (N := 2 * x.length + y.length + 2) (fun rng => equ.commitAndProve sch x y crs rng) (D crs)
    |bindingGame e D1 - trapdoorGame e (fun crs _t1 t2 => viewGame (N := 2 * x.length + y.length + 2)
        (fun rng => equ.simulate x.length y.length t2 crs rng) (D crs))| ≤
      sxdhAdv e D1 + (1 / Fintype.card G1 + 1 / Fintype.card G2) :=
  computational_zk (fun crs rng => equ.commitAndProve sch x y crs rng)
    (fun crs _ t2 rng => equ.simulate x.length y.length t2 crs rng) D hD fun _ _ a1 a2 t1 t2 z1 z2 =>
      C50_msmeg1 he z1 z2 a1 a2 t1 t2 equ x y hx hy hd h sch

example (sch : Nat → Scheduler) (D : CRS Ex.K Ex.K Ex.K → Res (View Ex.K Ex.K) → ℝ)
    (hD : ∀ crs v, 0 ≤ D crs v ∧ D crs v ≤ 1) :=
  C57_msmeg1 Ex.prime7 Ex.msm1_7 [2] [3, 4] (by simp) (by simp) Ex.msm1_7_dims Ex.msm1_7_holds sch D hD

/-- C56: with the CRS of `generate_crs`, whoever distinguishes MSMEG2 proofs for two satisfying witnesses breaks DDH. -/
theorem C56_msmeg2 (he : PrimeGroups e) (equ : MSMEG2 F G2) (x x' : List F) (y y' : List G2) (hx : x ≠ []) (hy : y ≠ [])
    (hd : equ.Dims x.length y.length) (hlx : x'.length = x.length) (hly : y'.length = y.length)
    (h : equ.Holds x y) (h' : equ.Holds x' y') (sch sch' : Nat → Scheduler)
    (D : CRS G1 G2 GT → Res (View G1 G2) → ℝ) (hD : ∀ crs v, 0 ≤ D crs v ∧ D crs v ≤ 1) :
    let D1 := fun crs : CRS G1 G2 GT =>
      viewGame (N := x.length + 2 * y.length + 2) (fun rng => equ.commitAndProve sch x y crs rng) (D crs)
    let D2 := fun crs : CRS G1 G2 GT =>
      viewGame (N := x.length + 2 * y.length + 2) (fun rng => equ.commitAndProve sch' x' y' crs rng) (D crs)
    |bindingGame e D1 - bindingGame e D2| ≤
      sxdhAdv e D1 + sxdhAdv e D2 + (1 / Fintype.card G1 + 1 / Fintype.card G2) :=
  computational_wi (fun crs rng => equ.commitAndProve sch x y crs rng)
    (fun crs rng => equ.commitAndProve sch' x' y' crs rng) D hD fun _ hs hg =>
      (C15_msmeg2 he hs hg equ x x' y y' hx hy hd hlx hly h h' sch sch').game _

example (sch : Nat → Scheduler) (D : CRS Ex.K Ex.K Ex.K → Res (View Ex.K Ex.K) → ℝ)
    (hD : ∀ crs v, 0 ≤ D crs v ∧ D crs v ≤ 1) :=
  C56_msmeg2 Ex.prime7 Ex.msm2_7 [2] [0] [3, 4] [1, 0] (by simp) (by simp) Ex.msm2_7_dims rfl rfl
    Ex.msm2_7_holds Ex.msm2_7_holds' sch sch D hD

/-- C57: MSMEG2 proofs under the CRS of `generate_crs` are computationally indistinguishable from the output of a simulator
that has no witness, together with a CRS of which it knows the trapdoors. -/
theorem C57_msmeg2 (he : PrimeGroups e) (equ : MSMEG2 F G2) (x : List F) (y : List G2) (hx : x ≠ []) (hy : y ≠ [])
    (hd : equ.Dims x.length y.length) (h : equ.Holds x y) (sch : Nat → Scheduler)
    (D : CRS G1 G2 GT → Res (View G1 G2) → ℝ) (hD : ∀ crs v, 0 ≤ D crs v ∧ D crs v ≤ 1) :
    let D1 := fun crs : CRS G1 G2 GT =>
      viewGame (N := x.length + 2 * y.length + 2) (fun rng => equ.commitAndProve sch x y crs rng) (D crs)
    |bindingGame e D1 - trapdoorGame e (fun crs t1 _t2 => viewGame (N := x.length + 2 * y.length + 2)
        (fun rng => equ.simulate x.length y.length t1 crs rng) (D crs))| ≤
      sxdhAdv e D1 + (1 / Fintype.card G1 + 1 / Fintype.card G2) :=
  computational_zk (fun crs rng => equ.commitAndProve sch x y crs rng)
    (fun crs t1 _ rng => equ.simulate x.length y.length t1 crs rng) D hD fun _ _ a1 a2 t1 t2 z1 z2 =>
      C50_msmeg2 he z1 z2 a1 a2 t1 t2 equ x y hx hy hd h sch

example (sch : Nat → Scheduler) (D : CRS Ex.K Ex.K Ex.K → Res (View Ex.K Ex.K) → ℝ)
    (hD : ∀ crs v, 0 ≤ D crs v ∧ D crs v ≤ 1) :=
  C57_msmeg2 Ex.prime7 Ex.msm2_7 [2] [3, 4] (by simp) (by simp) Ex.msm2_7_dims Ex.msm2_7_holds sch D hD

/-- C56: with the CRS of `generate_crs`, whoever distinguishes QuadEqu proofs for two satisfying witnesses breaks DDH. -/
theorem C56_quad (he : PrimeGroups e) (equ : QuadEqu F) (x x' : List F) (y y' : List F) (hx : x ≠ []) (hy : y ≠ [])
    (hd : equ.Dims x.length y.length) (hlx : x'.length = x.length) (hly : y'.length = y.length)
    (h : equ.Holds x y) (h' : equ.Holds x' y') (sch sch' : Nat → Scheduler)
    (D : CRS G1 G2 GT → Res (View G1 G2) → ℝ) (hD : ∀ crs v, 0 ≤ D crs v ∧ D crs v ≤ 1) :
    let D1 := fun crs : CRS G1 G2 GT =>
      viewGame (N := x.length + y.length + 1) (fun rng => equ.commitAndProve sch x y crs rng) (D crs)
    let D2 := fun crs : CRS G1 G2 GT =>
      viewGame (N := x.length + y.length + 1) (fun rng => equ.commitAndProve sch' x' y' crs rng) (D crs)
    |bindingGame e D1 - bindingGame e D2| ≤
      sxdhAdv e D1 + sxdhAdv e D2 + (1 / Fintype.card G1 + 1 / Fintype.card G2) :=
  computational_wi (fun crs rng => equ.commitAndProve sch x y crs rng)
    (fun crs rng => equ.commitAndProve sch' x' y' crs rng) D hD fun _ hs hg =>
      (C16_quad he hs hg equ x x' y y' hx hy hd hlx hly h h' sch sch').game _

example (sch : Nat → Scheduler) (D : CRS Ex.K Ex.K Ex.K → Res (View Ex.K Ex.K) → ℝ)
    (hD : ∀ crs v, 0 ≤ D crs v ∧ D crs v ≤ 1) :=
  C56_quad Ex.prime7 Ex.quad7 [2] [0] [3, 4] [1, 0] (by simp) (by simp) Ex.quad7_dims rfl rfl
    Ex.quad7_holds Ex.quad7_holds' sch sch D hD

/-- C57: QuadEqu proofs under the CRS of `generate_crs` are computationally indistinguishable from the output of a simulator
that has no witness, together with a CRS of which it knows the trapdoors. -/
theorem C57_quad (he : PrimeGroups e) (equ : QuadEqu F) (x : List F) (y : List F) (hx : x ≠ []) (hy : y ≠ [])
    (hd : equ.Dims x.length y.length) (h : equ.Holds x y) (sch : Nat → Scheduler)
    (D : CRS G1 G2 GT → Res (View G1 G2) → ℝ) (hD : ∀ crs v, 0 ≤ D crs v ∧ D crs v ≤ 1) :
    let D1 := fun crs : CRS G1 G2 GT =>
      viewGame (N := x.length + y.length + 1) (fun rng => equ.commitAndProve sch x y crs rng) (D crs)
    |bindingGame e D1 - trapdoorGame e (fun crs t1 t2 => viewGame (N := x.length + y.length + 1)
        (fun rng => equ.simulate x.length y.length t1 t2 crs rng) (D crs))| ≤
      sxdhAdv e D1 + (1 / Fintype.card G1 + 1 / Fintype.card G2) :=
  computational_zk (fun crs rng => equ.commitAndProve sch x y crs rng)
    (fun crs t1 t2 rng => equ.simulate x.length y.length t1 t2 crs rng) D hD fun _ _ a1 a2 t1 t2 z1 z2 =>
      C50_quad he z1 z2 a1 a2 t1 t2 equ x y hx hy hd h sch

example (sch : Nat → Scheduler) (D : CRS Ex.K Ex.K Ex.K → Res (View Ex.K Ex.K) → ℝ)
    (hD : ∀ crs v, 0 ≤ D crs v ∧ D crs v ≤ 1) :=
  C57_quad Ex.prime7 Ex.quad7 [2] [3, 4] (by simp) (by simp) Ex.quad7_dims Ex.quad7_holds sch D hD

/-! ### Instances -/

namespace Ex

example := C51_reductions (e := e7) (fun crs : CRS K K K => if crs.g1_gen = crs.g2_gen then 1 else 0) fun crs => by split <;> norm_num

end Ex

end GS
