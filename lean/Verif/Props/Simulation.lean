import Verif.Lemmas.Simulate
import Verif.Props.Hiding

/-!
# C50: zero knowledge

The simulators are in `Verif/Spec/Simulator.lean`.
-/

set_option linter.unusedSectionVars false

namespace GS
variable {F G1 G2 GT : Type} [Field F] [AddCommGroup G1] [Module F G1] [AddCommGroup G2] [Module F G2]
  [AddCommGroup GT] [Module F GT] {e : G1 →ₗ[F] G2 →ₗ[F] GT}

theorem simulated_keys (he : PrimeGroups e) {p1 : G1} {p2 : G2} (h1 : p1 ≠ 0) (h2 : p2 ≠ 0) {a1 a2 t1 t2 : F} :
    ∃ u0 u1 v0 v1, (assembleCrs e prepareSimulatedHidingKey p1 p2 a1 a2 t1 t2).u = [u0, u1] ∧
      (assembleCrs e prepareSimulatedHidingKey p1 p2 a1 a2 t1 t2).v = [v0, v1] ∧
      HidingKey (assembleCrs e prepareSimulatedHidingKey p1 p2 a1 a2 t1 t2).g1_gen a1 t1 u0 u1 ∧
      HidingKey (assembleCrs e prepareSimulatedHidingKey p1 p2 a1 a2 t1 t2).g2_gen a2 t2 v0 v1 := by
  rw [assembleSim_eq]
  exact ⟨_, _, _, _, rfl, rfl, ⟨h1, he.cyclic1 _ h1, rfl, rfl⟩, ⟨h2, he.cyclic2 _ h2, rfl, rfl⟩⟩

/-- C50: on a simulated CRS, a simulator knowing `t2` but no witness produces the same views as the prover. -/
theorem C50_msmeg1 (he : PrimeGroups e) {p1 : G1} {p2 : G2} (h1 : p1 ≠ 0) (h2 : p2 ≠ 0) (a1 a2 t1 t2 : F)
    (equ : MSMEG1 F G1) (x : List G1) (y : List F) (hx : x ≠ []) (hy : y ≠ []) (hd : equ.Dims x.length y.length)
    (h : equ.Holds x y) (sch : Nat → Scheduler) :
    let crs := assembleCrs e prepareSimulatedHidingKey p1 p2 a1 a2 t1 t2
    SameViews (N := 2 * x.length + y.length + 2) (viewOn fun rng => equ.commitAndProve sch x y crs rng)
      (viewOn fun rng => equ.simulate x.length y.length t2 crs rng) := by
  obtain ⟨u0, u1, v0, v1, hu, hv, ku, kv⟩ := simulated_keys he h1 h2 (a1 := a1) (a2 := a2) (t1 := t1) (t2 := t2)
  intro crs
  have hm := List.length_pos_iff.mpr hx
  have hn := List.length_pos_iff.mpr hy
  obtain ⟨m, hxm⟩ : ∃ m, x.length = m := ⟨_, rfl⟩
  obtain ⟨n, hyn⟩ : ∃ n, y.length = n := ⟨_, rfl⟩
  rw [hxm] at hm hd
  rw [hyn] at hn hd
  rw [hxm, hyn]
  obtain ⟨a, ha⟩ := exists_ofFn equ.a_consts hd.a
  obtain ⟨b, hb⟩ := exists_ofFn equ.b_consts hd.b
  obtain ⟨γ, hγ⟩ := rect_iff.mp (⟨hd.rows, hd.cols⟩ : Rect _ _ equ.gamma)
  obtain ⟨x, rfl⟩ := exists_ofFn x hxm
  obtain ⟨y, rfl⟩ := exists_ofFn y hyn
  refine sameViews_of (p := 2) (q := 1) (by omega) (MSMEG1.view_eq hm hn ha hb hγ x y hu hv)
    (MSMEG1.simulate_view hm hn ha hb hγ t2 hu hv)
    (exists_equiv_of_range (viewFn_inj ku.indep2 kv.indep1 ..) (simFn1_inj ku.indep2 kv.indep1 ..) fun w => ?_)
  rw [viewFn_range (ComT.pairL e) γ (fun _ => ku.span2 _) (fun _ => ku.span2 _) (fun _ => kv.span1 _) (ku.pair2 he),
    simFn1_range (ComT.pairL e) _ γ (fun _ => ku.span2 _) (ku.span2 _) (ku.pair2 he),
    MSMEG1.value (e := e) ha hb hγ h _, kv.lift]
  have : tMSMEG1 e (t2 • v0) equ.target = ComT.pairL e (t2 • i1 (F := F) equ.target) v0 := by
    rw [map_smul, LinearMap.smul_apply, ← map_smul]; rfl
  simp only [this, smul_smul]

/-- C50: for uniform randomness, simulated and published values have the same distribution. -/
theorem C50_msmeg1_distribution [Fintype F] (he : PrimeGroups e) {p1 : G1} {p2 : G2} (h1 : p1 ≠ 0) (h2 : p2 ≠ 0)
    (a1 a2 t1 t2 : F) (equ : MSMEG1 F G1) (x : List G1) (y : List F) (hx : x ≠ []) (hy : y ≠ [])
    (hd : equ.Dims x.length y.length) (h : equ.Holds x y) (sch : Nat → Scheduler) :
    let crs := assembleCrs e prepareSimulatedHidingKey p1 p2 a1 a2 t1 t2
    dist (N := 2 * x.length + y.length + 2) (viewOn fun rng => equ.commitAndProve sch x y crs rng) =
      dist (N := 2 * x.length + y.length + 2) (viewOn fun rng => equ.simulate x.length y.length t2 crs rng) :=
  (C50_msmeg1 he h1 h2 a1 a2 t1 t2 equ x y hx hy hd h sch).dist

example (sch : Nat → Scheduler) :
    dist (N := 6) (viewOn fun rng => Ex.msm1_7.commitAndProve sch [2] [3, 4] Ex.sim7 rng) =
      dist (N := 6) (viewOn fun rng => Ex.msm1_7.simulate 1 2 6 Ex.sim7 rng) :=
  C50_msmeg1_distribution Ex.prime7 (p1 := 1) (p2 := 2) (by decide) (by decide) 3 4 5 6 _ [2] [3, 4] (by simp) (by simp)
    Ex.msm1_7_dims Ex.msm1_7_holds sch

/-- C50: on a simulated CRS, a simulator knowing `t1` but no witness produces the same views as the prover. -/
theorem C50_msmeg2 (he : PrimeGroups e) {p1 : G1} {p2 : G2} (h1 : p1 ≠ 0) (h2 : p2 ≠ 0) (a1 a2 t1 t2 : F)
    (equ : MSMEG2 F G2) (x : List F) (y : List G2) (hx : x ≠ []) (hy : y ≠ []) (hd : equ.Dims x.length y.length)
    (h : equ.Holds x y) (sch : Nat → Scheduler) :
    let crs := assembleCrs e prepareSimulatedHidingKey p1 p2 a1 a2 t1 t2
    SameViews (N := x.length + 2 * y.length + 2) (viewOn fun rng => equ.commitAndProve sch x y crs rng)
      (viewOn fun rng => equ.simulate x.length y.length t1 crs rng) := by
  obtain ⟨u0, u1, v0, v1, hu, hv, ku, kv⟩ := simulated_keys he h1 h2 (a1 := a1) (a2 := a2) (t1 := t1) (t2 := t2)
  intro crs
  have hm := List.length_pos_iff.mpr hx
  have hn := List.length_pos_iff.mpr hy
  obtain ⟨m, hxm⟩ : ∃ m, x.length = m := ⟨_, rfl⟩
  obtain ⟨n, hyn⟩ : ∃ n, y.length = n := ⟨_, rfl⟩
  rw [hxm] at hm hd
  rw [hyn] at hn hd
  rw [hxm, hyn]
  obtain ⟨a, ha⟩ := exists_ofFn equ.a_consts hd.a
  obtain ⟨b, hb⟩ := exists_ofFn equ.b_consts hd.b
  obtain ⟨γ, hγ⟩ := rect_iff.mp (⟨hd.rows, hd.cols⟩ : Rect _ _ equ.gamma)
  obtain ⟨x, rfl⟩ := exists_ofFn x hxm
  obtain ⟨y, rfl⟩ := exists_ofFn y hyn
  refine sameViews_of (p := 1) (q := 2) (by omega) (MSMEG2.view_eq hm hn ha hb hγ x y hu hv)
    (MSMEG2.simulate_view hm hn ha hb hγ t1 hu hv)
    (exists_equiv_of_range (viewFn_inj ku.indep1 kv.indep2 ..) (simFn2_inj ku.indep1 kv.indep2 ..) fun w => ?_)
  rw [viewFn_range (ComT.pairL e) γ (fun _ => ku.span1 _) (fun _ => ku.span1 _) (fun _ => kv.span2 _) (ku.pair1 he),
    simFn2_range (ComT.pairL e) _ γ (ku.pair1 he), MSMEG2.value (e := e) ha hb hγ h _, ku.lift]
  have : tMSMEG2 e (t1 • u0) equ.target = ComT.pairL e u0 (t1 • i2 (F := F) equ.target) := by
    rw [map_smul, ← LinearMap.smul_apply, ← map_smul]; rfl
  simp only [this, smul_smul]

/-- C50: for uniform randomness, simulated and published values have the same distribution. -/
theorem C50_msmeg2_distribution [Fintype F] (he : PrimeGroups e) {p1 : G1} {p2 : G2} (h1 : p1 ≠ 0) (h2 : p2 ≠ 0)
    (a1 a2 t1 t2 : F) (equ : MSMEG2 F G2) (x : List F) (y : List G2) (hx : x ≠ []) (hy : y ≠ [])
    (hd : equ.Dims x.length y.length) (h : equ.Holds x y) (sch : Nat → Scheduler) :
    let crs := assembleCrs e prepareSimulatedHidingKey p1 p2 a1 a2 t1 t2
    dist (N := x.length + 2 * y.length + 2) (viewOn fun rng => equ.commitAndProve sch x y crs rng) =
      dist (N := x.length + 2 * y.length + 2) (viewOn fun rng => equ.simulate x.length y.length t1 crs rng) :=
  (C50_msmeg2 he h1 h2 a1 a2 t1 t2 equ x y hx hy hd h sch).dist

example (sch : Nat → Scheduler) :
    dist (N := 7) (viewOn fun rng => Ex.msm2_7.commitAndProve sch [2] [3, 4] Ex.sim7 rng) =
      dist (N := 7) (viewOn fun rng => Ex.msm2_7.simulate 1 2 5 Ex.sim7 rng) :=
  C50_msmeg2_distribution Ex.prime7 (p1 := 1) (p2 := 2) (by decide) (by decide) 3 4 5 6 _ [2] [3, 4] (by simp) (by simp)
    Ex.msm2_7_dims Ex.msm2_7_holds sch

/-- C50: on a simulated CRS, a simulator knowing `t1` and `t2` but no witness produces the same views as the prover. -/
theorem C50_quad (he : PrimeGroups e) {p1 : G1} {p2 : G2} (h1 : p1 ≠ 0) (h2 : p2 ≠ 0) (a1 a2 t1 t2 : F)
    (equ : QuadEqu F) (x : List F) (y : List F) (hx : x ≠ []) (hy : y ≠ []) (hd : equ.Dims x.length y.length)
    (h : equ.Holds x y) (sch : Nat → Scheduler) :
    let crs := assembleCrs e prepareSimulatedHidingKey p1 p2 a1 a2 t1 t2
    SameViews (N := x.length + y.length + 1) (viewOn fun rng => equ.commitAndProve sch x y crs rng)
      (viewOn fun rng => equ.simulate x.length y.length t1 t2 crs rng) := by
  obtain ⟨u0, u1, v0, v1, hu, hv, ku, kv⟩ := simulated_keys he h1 h2 (a1 := a1) (a2 := a2) (t1 := t1) (t2 := t2)
  intro crs
  have hm := List.length_pos_iff.mpr hx
  have hn := List.length_pos_iff.mpr hy
  obtain ⟨m, hxm⟩ : ∃ m, x.length = m := ⟨_, rfl⟩
  obtain ⟨n, hyn⟩ : ∃ n, y.length = n := ⟨_, rfl⟩
  rw [hxm] at hm hd
  rw [hyn] at hn hd
  rw [hxm, hyn]
  obtain ⟨a, ha⟩ := exists_ofFn equ.a_consts hd.a
  obtain ⟨b, hb⟩ := exists_ofFn equ.b_consts hd.b
  obtain ⟨γ, hγ⟩ := rect_iff.mp (⟨hd.rows, hd.cols⟩ : Rect _ _ equ.gamma)
  obtain ⟨x, rfl⟩ := exists_ofFn x hxm
  obtain ⟨y, rfl⟩ := exists_ofFn y hyn
  refine sameViews_of (p := 1) (q := 1) (by omega) (QuadEqu.view_eq hm hn ha hb hγ x y hu hv)
    (QuadEqu.simulate_view hm hn ha hb hγ t1 t2 hu hv)
    (exists_equiv_of_range (viewFn_inj ku.indep1 kv.indep1 ..) (simFn1_inj ku.indep1 kv.indep1 ..) fun w => ?_)
  have hsp : ∀ r : F, r • t1 • u0 ∈ Submodule.span F (Set.range ![u0]) := fun r => by
    rw [smul_smul]; exact mem_span1 _ _
  rw [viewFn_range (ComT.pairL e) γ (fun _ => ku.span1 _) (fun _ => ku.span1 _) (fun _ => kv.span1 _) (ku.pair1 he),
    simFn1_range (ComT.pairL e) _ γ (fun _ => hsp _) (Submodule.smul_mem _ _ (hsp _)) (ku.pair1 he),
    QuadEqu.value (e := e) ha hb hγ h _, kv.lift, ku.lift]
  have : tQuad e (t1 • u0) (t2 • v0) equ.target = ComT.pairL e (t2 • equ.target • t1 • u0) v0 := by
    rw [tQuad, LinearMap.toSpanSingleton_apply]
    simp only [map_smul, LinearMap.smul_apply]
    module
  simp only [this, smul_smul]

/-- C50: for uniform randomness, simulated and published values have the same distribution. -/
theorem C50_quad_distribution [Fintype F] (he : PrimeGroups e) {p1 : G1} {p2 : G2} (h1 : p1 ≠ 0) (h2 : p2 ≠ 0)
    (a1 a2 t1 t2 : F) (equ : QuadEqu F) (x : List F) (y : List F) (hx : x ≠ []) (hy : y ≠ [])
    (hd : equ.Dims x.length y.length) (h : equ.Holds x y) (sch : Nat → Scheduler) :
    let crs := assembleCrs e prepareSimulatedHidingKey p1 p2 a1 a2 t1 t2
    dist (N := x.length + y.length + 1) (viewOn fun rng => equ.commitAndProve sch x y crs rng) =
      dist (N := x.length + y.length + 1) (viewOn fun rng => equ.simulate x.length y.length t1 t2 crs rng) :=
  (C50_quad he h1 h2 a1 a2 t1 t2 equ x y hx hy hd h sch).dist

example (sch : Nat → Scheduler) :
    dist (N := 4) (viewOn fun rng => Ex.quad7.commitAndProve sch [2] [3, 4] Ex.sim7 rng) =
      dist (N := 4) (viewOn fun rng => Ex.quad7.simulate 1 2 5 6 Ex.sim7 rng) :=
  C50_quad_distribution Ex.prime7 (p1 := 1) (p2 := 2) (by decide) (by decide) 3 4 5 6 _ [2] [3, 4] (by simp) (by simp)
    Ex.quad7_dims Ex.quad7_holds sch

/-- C50: a PPE equation with target 0 is simulated, even without a trapdoor, by proving it for zeros. -/
theorem C50_ppe_zero_target {crs : CRS G1 G2 GT} (he : PrimeGroups e) (hs : SimulatedCrs e crs) (hg : crs.NonzeroGens)
    (equ : PPE F G1 G2 GT) (h0 : equ.target = 0) (x : List G1) (y : List G2) (hx : x ≠ []) (hy : y ≠ [])
    (hd : equ.Dims x.length y.length) (h : equ.Holds e x y) (sch sch' : Nat → Scheduler) :
    SameViews (N := 2 * x.length + 2 * y.length + 4) (viewOn fun rng => equ.commitAndProve sch x y crs rng)
      (viewOn fun rng => equ.commitAndProve sch' (List.replicate x.length 0) (List.replicate y.length 0) crs rng) := by
  refine C13_ppe he hs hg equ x _ y _ hx hy hd (by simp) (by simp) h ?_ sch sch'
  obtain ⟨a, ha⟩ := exists_ofFn equ.a_consts hd.a
  obtain ⟨b, hb⟩ := exists_ofFn equ.b_consts hd.b
  obtain ⟨γ, hγ⟩ := rect_iff.mp (⟨hd.rows, hd.cols⟩ : Rect _ _ equ.gamma)
  rw [PPE.Holds, ha, hb, hγ, h0, replicate_ofFn, replicate_ofFn, equLhs_ofFn]
  simp

example (sch sch' : Nat → Scheduler) :
    SameViews (N := 10)
      (viewOn fun rng => (⟨[1, 2], [5], [[1, 2]], 0⟩ : PPE Ex.K Ex.K Ex.K Ex.K).commitAndProve sch [2] [4, 1] Ex.sim7 rng)
      (viewOn fun rng => (⟨[1, 2], [5], [[1, 2]], 0⟩ : PPE Ex.K Ex.K Ex.K Ex.K).commitAndProve sch' [0] [0, 0] Ex.sim7 rng) :=
  C50_ppe_zero_target Ex.prime7 Ex.sim7_simulated Ex.sim7_nonzero _ rfl [2] [4, 1] (by simp) (by simp)
    (by constructor <;> simp) (by unfold PPE.Holds; decide) sch sch'

/-! ### Instances -/

namespace Ex

example (sch : Nat → Scheduler) := C50_msmeg1 (e := e7) prime7 (p1 := 1) (p2 := 2) (by decide) (by decide) 3 4 5 6 msm1_7 [2] [3, 4] (by simp) (by simp)
  msm1_7_dims msm1_7_holds sch
example (sch : Nat → Scheduler) := C50_msmeg2 (e := e7) prime7 (p1 := 1) (p2 := 2) (by decide) (by decide) 3 4 5 6 msm2_7 [2] [3, 4] (by simp) (by simp)
  msm2_7_dims msm2_7_holds sch
example (sch : Nat → Scheduler) := C50_quad (e := e7) prime7 (p1 := 1) (p2 := 2) (by decide) (by decide) 3 4 5 6 quad7 [2] [3, 4] (by simp) (by simp)
  quad7_dims quad7_holds sch

end Ex

end GS
