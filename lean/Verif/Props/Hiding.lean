import Verif.Lemmas.SimKey
import Verif.Props.Domains

/-!
# C13 - C17: witness indistinguishability and hiding

`SameViews view view'` (`Verif/Spec/Hiding.lean`): there is a bijection of random tapes under which the two
functions publish the same values. Its consequence for uniform tapes is stated with the probability mass functions
of Mathlib.
-/

set_option linter.unusedSectionVars false

namespace GS
variable {F G1 G2 GT : Type} [Field F] [AddCommGroup G1] [Module F G1] [AddCommGroup G2] [Module F G2]
  [AddCommGroup GT] [Module F GT] {e : G1 →ₗ[F] G2 →ₗ[F] GT} {crs : CRS G1 G2 GT}

/-- C13: witness indistinguishability of PPE proofs. -/
theorem C13_ppe (he : PrimeGroups e) (hs : SimulatedCrs e crs) (hg : crs.NonzeroGens) (equ : PPE F G1 G2 GT)
    (x x' : List G1) (y y' : List G2) (hx : x ≠ []) (hy : y ≠ []) (hd : equ.Dims x.length y.length)
    (hlx : x'.length = x.length) (hly : y'.length = y.length) (h : equ.Holds e x y) (h' : equ.Holds e x' y')
    (sch sch' : Nat → Scheduler) :
    SameViews (N := 2 * x.length + 2 * y.length + 4)
      (viewOn fun rng => equ.commitAndProve sch x y crs rng) (viewOn fun rng => equ.commitAndProve sch' x' y' crs rng) := by
  obtain ⟨u0, u1, v0, v1, a1, t1, a2, t2, hu, hv, ku, kv⟩ := hs.keys he hg
  have hm := List.length_pos_iff.mpr hx
  have hn := List.length_pos_iff.mpr hy
  obtain ⟨m, hxm⟩ : ∃ m, x.length = m := ⟨_, rfl⟩
  obtain ⟨n, hyn⟩ : ∃ n, y.length = n := ⟨_, rfl⟩
  rw [hxm] at hm hd hlx
  rw [hyn] at hn hd hly
  rw [hxm, hyn]
  obtain ⟨a, ha⟩ := exists_ofFn equ.a_consts hd.a
  obtain ⟨b, hb⟩ := exists_ofFn equ.b_consts hd.b
  obtain ⟨γ, hγ⟩ := rect_iff.mp (⟨hd.rows, hd.cols⟩ : Rect _ _ equ.gamma)
  obtain ⟨x, rfl⟩ := exists_ofFn x hxm
  obtain ⟨y, rfl⟩ := exists_ofFn y hyn
  obtain ⟨x', rfl⟩ := exists_ofFn x' hlx
  obtain ⟨y', rfl⟩ := exists_ofFn y' hly
  exact sameViews_of (p := 2) (q := 2) (by omega) (PPE.view_eq hm hn ha hb hγ x y hu hv)
    (PPE.view_eq hm hn ha hb hγ x' y' hu hv)
    (viewFn_equiv (ComT.pairL e) ku.indep2 kv.indep2 (ku.pair2 he) γ (fun _ => ku.span2 _) (fun _ => ku.span2 _)
      (fun _ => ku.span2 _) (fun _ => kv.span2 _) (fun _ => kv.span2 _)
      ((PPE.value (e := e) ha hb hγ h).trans (PPE.value (e := e) ha hb hγ h').symm))

/-- C13: for uniform randomness the published values have the same distribution. -/
theorem C13_ppe_distribution [Fintype F] (he : PrimeGroups e) (hs : SimulatedCrs e crs) (hg : crs.NonzeroGens)
    (equ : PPE F G1 G2 GT) (x x' : List G1) (y y' : List G2) (hx : x ≠ []) (hy : y ≠ [])
    (hd : equ.Dims x.length y.length) (hlx : x'.length = x.length) (hly : y'.length = y.length)
    (h : equ.Holds e x y) (h' : equ.Holds e x' y') (sch sch' : Nat → Scheduler) :
    dist (N := 2 * x.length + 2 * y.length + 4) (viewOn fun rng => equ.commitAndProve sch x y crs rng) =
      dist (N := 2 * x.length + 2 * y.length + 4) (viewOn fun rng => equ.commitAndProve sch' x' y' crs rng) :=
  (C13_ppe he hs hg equ x x' y y' hx hy hd hlx hly h h' sch sch').dist

example (sch : Nat → Scheduler) : dist (N := 10) (viewOn fun rng => Ex.ppe7.commitAndProve sch [2] [3, 4] Ex.sim7 rng) =
    dist (N := 10) (viewOn fun rng => Ex.ppe7.commitAndProve sch [0] [1, 0] Ex.sim7 rng) :=
  C13_ppe_distribution Ex.prime7 Ex.sim7_simulated Ex.sim7_nonzero _ [2] [0] [3, 4] [1, 0] (by simp) (by simp) Ex.ppe7_dims rfl rfl
    Ex.ppe7_holds Ex.ppe7_holds' _ _

/-- C14: witness indistinguishability of MSMEG1 proofs. -/
theorem C14_msmeg1 (he : PrimeGroups e) (hs : SimulatedCrs e crs) (hg : crs.NonzeroGens) (equ : MSMEG1 F G1)
    (x x' : List G1) (y y' : List F) (hx : x ≠ []) (hy : y ≠ []) (hd : equ.Dims x.length y.length)
    (hlx : x'.length = x.length) (hly : y'.length = y.length) (h : equ.Holds x y) (h' : equ.Holds x' y')
    (sch sch' : Nat → Scheduler) :
    SameViews (N := 2 * x.length + y.length + 2)
      (viewOn fun rng => equ.commitAndProve sch x y crs rng) (viewOn fun rng => equ.commitAndProve sch' x' y' crs rng) := by
  obtain ⟨u0, u1, v0, v1, a1, t1, a2, t2, hu, hv, ku, kv⟩ := hs.keys he hg
  have hm := List.length_pos_iff.mpr hx
  have hn := List.length_pos_iff.mpr hy
  obtain ⟨m, hxm⟩ : ∃ m, x.length = m := ⟨_, rfl⟩
  obtain ⟨n, hyn⟩ : ∃ n, y.length = n := ⟨_, rfl⟩
  rw [hxm] at hm hd hlx
  rw [hyn] at hn hd hly
  rw [hxm, hyn]
  obtain ⟨a, ha⟩ := exists_ofFn equ.a_consts hd.a
  obtain ⟨b, hb⟩ := exists_ofFn equ.b_consts hd.b
  obtain ⟨γ, hγ⟩ := rect_iff.mp (⟨hd.rows, hd.cols⟩ : Rect _ _ equ.gamma)
  obtain ⟨x, rfl⟩ := exists_ofFn x hxm
  obtain ⟨y, rfl⟩ := exists_ofFn y hyn
  obtain ⟨x', rfl⟩ := exists_ofFn x' hlx
  obtain ⟨y', rfl⟩ := exists_ofFn y' hly
  exact sameViews_of (p := 2) (q := 1) (by omega) (MSMEG1.view_eq hm hn ha hb hγ x y hu hv)
    (MSMEG1.view_eq hm hn ha hb hγ x' y' hu hv)
    (viewFn_equiv (ComT.pairL e) ku.indep2 kv.indep1 (ku.pair2 he) γ (fun _ => ku.span2 _) (fun _ => ku.span2 _)
      (fun _ => ku.span2 _) (fun _ => kv.span1 _) (fun _ => kv.span1 _)
      ((MSMEG1.value (e := e) ha hb hγ h _).trans (MSMEG1.value (e := e) ha hb hγ h' _).symm))

/-- C14: for uniform randomness the published values have the same distribution. -/
theorem C14_msmeg1_distribution [Fintype F] (he : PrimeGroups e) (hs : SimulatedCrs e crs) (hg : crs.NonzeroGens)
    (equ : MSMEG1 F G1) (x x' : List G1) (y y' : List F) (hx : x ≠ []) (hy : y ≠ [])
    (hd : equ.Dims x.length y.length) (hlx : x'.length = x.length) (hly : y'.length = y.length)
    (h : equ.Holds x y) (h' : equ.Holds x' y') (sch sch' : Nat → Scheduler) :
    dist (N := 2 * x.length + y.length + 2) (viewOn fun rng => equ.commitAndProve sch x y crs rng) =
      dist (N := 2 * x.length + y.length + 2) (viewOn fun rng => equ.commitAndProve sch' x' y' crs rng) :=
  (C14_msmeg1 he hs hg equ x x' y y' hx hy hd hlx hly h h' sch sch').dist

example (sch : Nat → Scheduler) : dist (N := 6) (viewOn fun rng => Ex.msm1_7.commitAndProve sch [2] [3, 4] Ex.sim7 rng) =
    dist (N := 6) (viewOn fun rng => Ex.msm1_7.commitAndProve sch [0] [1, 0] Ex.sim7 rng) :=
  C14_msmeg1_distribution Ex.prime7 Ex.sim7_simulated Ex.sim7_nonzero _ [2] [0] [3, 4] [1, 0] (by simp) (by simp) Ex.msm1_7_dims rfl rfl
    Ex.msm1_7_holds Ex.msm1_7_holds' _ _

/-- C15: witness indistinguishability of MSMEG2 proofs. -/
theorem C15_msmeg2 (he : PrimeGroups e) (hs : SimulatedCrs e crs) (hg : crs.NonzeroGens) (equ : MSMEG2 F G2)
    (x x' : List F) (y y' : List G2) (hx : x ≠ []) (hy : y ≠ []) (hd : equ.Dims x.length y.length)
    (hlx : x'.length = x.length) (hly : y'.length = y.length) (h : equ.Holds x y) (h' : equ.Holds x' y')
    (sch sch' : Nat → Scheduler) :
    SameViews (N := x.length + 2 * y.length + 2)
      (viewOn fun rng => equ.commitAndProve sch x y crs rng) (viewOn fun rng => equ.commitAndProve sch' x' y' crs rng) := by
  obtain ⟨u0, u1, v0, v1, a1, t1, a2, t2, hu, hv, ku, kv⟩ := hs.keys he hg
  have hm := List.length_pos_iff.mpr hx
  have hn := List.length_pos_iff.mpr hy
  obtain ⟨m, hxm⟩ : ∃ m, x.length = m := ⟨_, rfl⟩
  obtain ⟨n, hyn⟩ : ∃ n, y.length = n := ⟨_, rfl⟩
  rw [hxm] at hm hd hlx
  rw [hyn] at hn hd hly
  rw [hxm, hyn]
  obtain ⟨a, ha⟩ := exists_ofFn equ.a_consts hd.a
  obtain ⟨b, hb⟩ := exists_ofFn equ.b_consts hd.b
  obtain ⟨γ, hγ⟩ := rect_iff.mp (⟨hd.rows, hd.cols⟩ : Rect _ _ equ.gamma)
  obtain ⟨x, rfl⟩ := exists_ofFn x hxm
  obtain ⟨y, rfl⟩ := exists_ofFn y hyn
  obtain ⟨x', rfl⟩ := exists_ofFn x' hlx
  obtain ⟨y', rfl⟩ := exists_ofFn y' hly
  exact sameViews_of (p := 1) (q := 2) (by omega) (MSMEG2.view_eq hm hn ha hb hγ x y hu hv)
    (MSMEG2.view_eq hm hn ha hb hγ x' y' hu hv)
    (viewFn_equiv (ComT.pairL e) ku.indep1 kv.indep2 (ku.pair1 he) γ (fun _ => ku.span1 _) (fun _ => ku.span1 _)
      (fun _ => ku.span1 _) (fun _ => kv.span2 _) (fun _ => kv.span2 _)
      ((MSMEG2.value (e := e) ha hb hγ h _).trans (MSMEG2.value (e := e) ha hb hγ h' _).symm))

/-- C15: for uniform randomness the published values have the same distribution. -/
theorem C15_msmeg2_distribution [Fintype F] (he : PrimeGroups e) (hs : SimulatedCrs e crs) (hg : crs.NonzeroGens)
    (equ : MSMEG2 F G2) (x x' : List F) (y y' : List G2) (hx : x ≠ []) (hy : y ≠ [])
    (hd : equ.Dims x.length y.length) (hlx : x'.length = x.length) (hly : y'.length = y.length)
    (h : equ.Holds x y) (h' : equ.Holds x' y') (sch sch' : Nat → Scheduler) :
    dist (N := x.length + 2 * y.length + 2) (viewOn fun rng => equ.commitAndProve sch x y crs rng) =
      dist (N := x.length + 2 * y.length + 2) (viewOn fun rng => equ.commitAndProve sch' x' y' crs rng) :=
  (C15_msmeg2 he hs hg equ x x' y y' hx hy hd hlx hly h h' sch sch').dist

example (sch : Nat → Scheduler) : dist (N := 7) (viewOn fun rng => Ex.msm2_7.commitAndProve sch [2] [3, 4] Ex.sim7 rng) =
    dist (N := 7) (viewOn fun rng => Ex.msm2_7.commitAndProve sch [0] [1, 0] Ex.sim7 rng) :=
  C15_msmeg2_distribution Ex.prime7 Ex.sim7_simulated Ex.sim7_nonzero _ [2] [0] [3, 4] [1, 0] (by simp) (by simp) Ex.msm2_7_dims rfl rfl
    Ex.msm2_7_holds Ex.msm2_7_holds' _ _

/-- C16: witness indistinguishability of QuadEqu proofs. -/
theorem C16_quad (he : PrimeGroups e) (hs : SimulatedCrs e crs) (hg : crs.NonzeroGens) (equ : QuadEqu F)
    (x x' : List F) (y y' : List F) (hx : x ≠ []) (hy : y ≠ []) (hd : equ.Dims x.length y.length)
    (hlx : x'.length = x.length) (hly : y'.length = y.length) (h : equ.Holds x y) (h' : equ.Holds x' y')
    (sch sch' : Nat → Scheduler) :
    SameViews (N := x.length + y.length + 1)
      (viewOn fun rng => equ.commitAndProve sch x y crs rng) (viewOn fun rng => equ.commitAndProve sch' x' y' crs rng) := by
  obtain ⟨u0, u1, v0, v1, a1, t1, a2, t2, hu, hv, ku, kv⟩ := hs.keys he hg
  have hm := List.length_pos_iff.mpr hx
  have hn := List.length_pos_iff.mpr hy
  obtain ⟨m, hxm⟩ : ∃ m, x.length = m := ⟨_, rfl⟩
  obtain ⟨n, hyn⟩ : ∃ n, y.length = n := ⟨_, rfl⟩
  rw [hxm] at hm hd hlx
  rw [hyn] at hn hd hly
  rw [hxm, hyn]
  obtain ⟨a, ha⟩ := exists_ofFn equ.a_consts hd.a
  obtain ⟨b, hb⟩ := exists_ofFn equ.b_consts hd.b
  obtain ⟨γ, hγ⟩ := rect_iff.mp (⟨hd.rows, hd.cols⟩ : Rect _ _ equ.gamma)
  obtain ⟨x, rfl⟩ := exists_ofFn x hxm
  obtain ⟨y, rfl⟩ := exists_ofFn y hyn
  obtain ⟨x', rfl⟩ := exists_ofFn x' hlx
  obtain ⟨y', rfl⟩ := exists_ofFn y' hly
  exact sameViews_of (p := 1) (q := 1) (by omega) (QuadEqu.view_eq hm hn ha hb hγ x y hu hv)
    (QuadEqu.view_eq hm hn ha hb hγ x' y' hu hv)
    (viewFn_equiv (ComT.pairL e) ku.indep1 kv.indep1 (ku.pair1 he) γ (fun _ => ku.span1 _) (fun _ => ku.span1 _)
      (fun _ => ku.span1 _) (fun _ => kv.span1 _) (fun _ => kv.span1 _)
      ((QuadEqu.value (e := e) ha hb hγ h _ _).trans (QuadEqu.value (e := e) ha hb hγ h' _ _).symm))

/-- C16: for uniform randomness the published values have the same distribution. -/
theorem C16_quad_distribution [Fintype F] (he : PrimeGroups e) (hs : SimulatedCrs e crs) (hg : crs.NonzeroGens)
    (equ : QuadEqu F) (x x' : List F) (y y' : List F) (hx : x ≠ []) (hy : y ≠ [])
    (hd : equ.Dims x.length y.length) (hlx : x'.length = x.length) (hly : y'.length = y.length)
    (h : equ.Holds x y) (h' : equ.Holds x' y') (sch sch' : Nat → Scheduler) :
    dist (N := x.length + y.length + 1) (viewOn fun rng => equ.commitAndProve sch x y crs rng) =
      dist (N := x.length + y.length + 1) (viewOn fun rng => equ.commitAndProve sch' x' y' crs rng) :=
  (C16_quad he hs hg equ x x' y y' hx hy hd hlx hly h h' sch sch').dist

example (sch : Nat → Scheduler) : dist (N := 4) (viewOn fun rng => Ex.quad7.commitAndProve sch [2] [3, 4] Ex.sim7 rng) =
    dist (N := 4) (viewOn fun rng => Ex.quad7.commitAndProve sch [0] [1, 0] Ex.sim7 rng) :=
  C16_quad_distribution Ex.prime7 Ex.sim7_simulated Ex.sim7_nonzero _ [2] [0] [3, 4] [1, 0] (by simp) (by simp) Ex.quad7_dims rfl rfl
    Ex.quad7_holds Ex.quad7_holds' _ _

/-! ### C17 -/

section
variable {G : Type} [AddCommGroup G] [Module F G] {m : Nat}

/-- The commitments of a batch as a function of the draws. -/
theorem sameComs {p N : Nat} (hN : N = m * p) {u : Fin p → Com G} (hu : Indep (F := F) u) {x x' : Fin m → Com G}
    (hx : ∀ i, x i ∈ Submodule.span F (Set.range u)) (hx' : ∀ i, x' i ∈ Submodule.span F (Set.range u))
    {view view' : (Fin N → F) → Res (List (Com G))}
    (h : ∀ t (R : Fin m → Fin p → F), List.ofFn t = (matOf R).flatten →
      view t = .ok (List.ofFn fun i => x i + ∑ k, R i k • u k))
    (h' : ∀ t (R : Fin m → Fin p → F), List.ofFn t = (matOf R).flatten →
      view' t = .ok (List.ofFn fun i => x' i + ∑ k, R i k • u k)) : SameViews view view' := by
  have hinj : ∀ x : Fin m → Com G,
      Function.Injective fun (r : Rands F m 0 p 0) => fun i => x i + ∑ k, r.1 i k • u k := by
    intro x r r' hr
    refine Prod.ext ?_ (Prod.ext (funext fun i => i.elim0) (funext fun i => i.elim0))
    funext i
    exact hu.inj (add_left_cancel (congrFun hr i))
  have hran : ∀ x : Fin m → Com G, (∀ i, x i ∈ Submodule.span F (Set.range u)) → ∀ c : Fin m → Com G,
      (∃ r : Rands F m 0 p 0, (fun i => x i + ∑ k, r.1 i k • u k) = c) ↔ ∀ i, c i ∈ Submodule.span F (Set.range u) := by
    intro x hx c
    constructor
    · rintro ⟨r, rfl⟩ i
      exact Submodule.add_mem _ (hx i) (Submodule.sum_mem _ fun k _ => Submodule.smul_mem _ _
        (Submodule.subset_span ⟨k, rfl⟩))
    · intro hc
      have h1 : ∀ i, ∃ r : Fin p → F, ∑ k, r k • u k = c i - x i := fun i =>
        (Submodule.mem_span_range_iff_exists_fun F).mp (Submodule.sub_mem _ (hc i) (hx i))
      choose R hR using h1
      exact ⟨(R, fun i => i.elim0, fun i => i.elim0), funext fun i => by simp only [hR]; abel⟩
  have hflat : ∀ r : Rands F m 0 p 0, flat r = (matOf r.1).flatten := by
    intro r; simp [flat, matOf]
  refine sameViews_of (n := 0) (q := 0) (p := p) (m := m) (by omega) (out := List.ofFn)
    (fun t r ht => h t r.1 (ht.trans (hflat r))) (fun t r ht => h' t r.1 (ht.trans (hflat r)))
    (exists_equiv_of_range (hinj x) (hinj x') fun c => ?_)
  rw [hran x hx, hran x' hx']

theorem comsOn_ok {N : Nat} {run : List F → Res (Commit F G × List F)} {t : Fin N → F} {l : List F}
    (h : List.ofFn t = l) {c : Commit F G} {v : List (Com G)} (hr : run l = .ok (c, [])) (hv : c.coms = v) :
    comsOn run t = .ok v := by
  rw [comsOn, h, hr, ← hv]; rfl

theorem draws_flatten {p N : Nat} (R : Fin m → Fin p → F) (hN : N = m * p) :
    draws (F := F) G1 G2 N (matOf R).flatten = ((matOf R).flatten, []) := by
  have := draws_tape' (F := F) (G1 := G1) (G2 := G2) (l := (matOf R).flatten) (n := N)
    (by rw [flatten_matOf_length, hN]) []
  rwa [List.append_nil] at this

end

/-- C17: batch commitments are perfectly hiding. -/
theorem C17_batch (he : PrimeGroups e) (hs : SimulatedCrs e crs) (hg : crs.NonzeroGens) :
    (∀ x x' : List G1, x ≠ [] → x'.length = x.length → SameViews (N := 2 * x.length)
      (comsOn fun rng => batchCommitG1 (F := F) x crs rng) (comsOn fun rng => batchCommitG1 (F := F) x' crs rng)) ∧
    (∀ y y' : List G2, y ≠ [] → y'.length = y.length → SameViews (N := 2 * y.length)
      (comsOn fun rng => batchCommitG2 (F := F) y crs rng) (comsOn fun rng => batchCommitG2 (F := F) y' crs rng)) ∧
    (∀ x x' : List F, x ≠ [] → x'.length = x.length → SameViews (N := x.length)
      (comsOn fun rng => batchCommitScalarToB1 x crs rng) (comsOn fun rng => batchCommitScalarToB1 x' crs rng)) ∧
    (∀ y y' : List F, y ≠ [] → y'.length = y.length → SameViews (N := y.length)
      (comsOn fun rng => batchCommitScalarToB2 y crs rng) (comsOn fun rng => batchCommitScalarToB2 y' crs rng)) := by
  obtain ⟨u0, u1, v0, v1, a1, t1, a2, t2, hu, hv, ku, kv⟩ := hs.keys he hg
  refine ⟨?_, ?_, ?_, ?_⟩ <;> intro x x' hx hl
  · have hm := List.length_pos_iff.mpr hx
    obtain ⟨m, hxm⟩ : ∃ m, x.length = m := ⟨_, rfl⟩
    rw [hxm] at hm hl
    rw [hxm]
    obtain ⟨x, rfl⟩ := exists_ofFn x hxm
    obtain ⟨x', rfl⟩ := exists_ofFn x' hl
    exact sameComs (p := 2) (by omega) ku.indep2 (x := fun i => ⟨0, x i⟩) (x' := fun i => ⟨0, x' i⟩)
      (fun _ => ku.span2 _) (fun _ => ku.span2 _)
      (fun t R ht => comsOn_ok ht (batchCommitG1_draws hm x hu (draws_flatten R (by omega))) (groupCom_sum u0 u1 x R))
      (fun t R ht => comsOn_ok ht (batchCommitG1_draws hm x' hu (draws_flatten R (by omega))) (groupCom_sum u0 u1 x' R))
  · have hm := List.length_pos_iff.mpr hx
    obtain ⟨m, hxm⟩ : ∃ m, x.length = m := ⟨_, rfl⟩
    rw [hxm] at hm hl
    rw [hxm]
    obtain ⟨x, rfl⟩ := exists_ofFn x hxm
    obtain ⟨x', rfl⟩ := exists_ofFn x' hl
    exact sameComs (p := 2) (by omega) kv.indep2 (x := fun i => ⟨0, x i⟩) (x' := fun i => ⟨0, x' i⟩)
      (fun _ => kv.span2 _) (fun _ => kv.span2 _)
      (fun t R ht => comsOn_ok ht (batchCommitG2_draws hm x hv (draws_flatten R (by omega))) (groupCom_sum v0 v1 x R))
      (fun t R ht => comsOn_ok ht (batchCommitG2_draws hm x' hv (draws_flatten R (by omega))) (groupCom_sum v0 v1 x' R))
  · have hm := List.length_pos_iff.mpr hx
    obtain ⟨m, hxm⟩ : ∃ m, x.length = m := ⟨_, rfl⟩
    rw [hxm] at hm hl
    rw [hxm]
    obtain ⟨x, rfl⟩ := exists_ofFn x hxm
    obtain ⟨x', rfl⟩ := exists_ofFn x' hl
    exact sameComs (p := 1) (by omega) ku.indep1 (x := fun i => x i • (u1 + ⟨0, crs.g1_gen⟩)) (x' := fun i => x' i • (u1 + ⟨0, crs.g1_gen⟩))
      (fun _ => ku.span1 _) (fun _ => ku.span1 _)
      (fun t R ht => comsOn_ok ht (batchCommitB1_draws hm x hu (draws_flatten R (by omega))) (scalarCom_sum u0 u1 crs.g1_gen x R))
      (fun t R ht => comsOn_ok ht (batchCommitB1_draws hm x' hu (draws_flatten R (by omega))) (scalarCom_sum u0 u1 crs.g1_gen x' R))
  · have hm := List.length_pos_iff.mpr hx
    obtain ⟨m, hxm⟩ : ∃ m, x.length = m := ⟨_, rfl⟩
    rw [hxm] at hm hl
    rw [hxm]
    obtain ⟨x, rfl⟩ := exists_ofFn x hxm
    obtain ⟨x', rfl⟩ := exists_ofFn x' hl
    exact sameComs (p := 1) (by omega) kv.indep1 (x := fun i => x i • (v1 + ⟨0, crs.g2_gen⟩)) (x' := fun i => x' i • (v1 + ⟨0, crs.g2_gen⟩))
      (fun _ => kv.span1 _) (fun _ => kv.span1 _)
      (fun t R ht => comsOn_ok ht (batchCommitB2_draws hm x hv (draws_flatten R (by omega))) (scalarCom_sum v0 v1 crs.g2_gen x R))
      (fun t R ht => comsOn_ok ht (batchCommitB2_draws hm x' hv (draws_flatten R (by omega))) (scalarCom_sum v0 v1 crs.g2_gen x' R))

/-- C17: single commitments are perfectly hiding. -/
theorem C17_single (he : PrimeGroups e) (hs : SimulatedCrs e crs) (hg : crs.NonzeroGens) :
    (∀ x x' : G1, SameViews (N := 2)
      (comsOn fun rng => commitG1 (F := F) x crs rng) (comsOn fun rng => commitG1 (F := F) x' crs rng)) ∧
    (∀ y y' : G2, SameViews (N := 2)
      (comsOn fun rng => commitG2 (F := F) y crs rng) (comsOn fun rng => commitG2 (F := F) y' crs rng)) ∧
    (∀ x x' : F, SameViews (N := 1)
      (comsOn fun rng => commitScalarToB1 x crs rng) (comsOn fun rng => commitScalarToB1 x' crs rng)) ∧
    (∀ y y' : F, SameViews (N := 1)
      (comsOn fun rng => commitScalarToB2 y crs rng) (comsOn fun rng => commitScalarToB2 y' crs rng)) := by
  obtain ⟨u0, u1, v0, v1, a1, t1, a2, t2, hu, hv, ku, kv⟩ := hs.keys he hg
  refine ⟨?_, ?_, ?_, ?_⟩ <;> intro x x'
  · refine sameComs (m := 1) (p := 2) (by omega) ku.indep2 (x := fun _ => ⟨0, x⟩) (x' := fun _ => ⟨0, x'⟩)
      (fun _ => ku.span2 _) (fun _ => ku.span2 _) ?_ ?_
    · intro t R ht
      refine comsOn_ok (c := ⟨[⟨0, x⟩ + R 0 0 • u0 + R 0 1 • u1], [[R 0 0, R 0 1]]⟩) ht (commitG1_iff.mpr ⟨u0, u1, [], hu, ?_⟩) ?_
      · simp only [matOf, List.ofFn_succ, List.ofFn_zero, List.flatten_cons, List.flatten_nil, List.append_nil]
        rfl
      · simp [Fin.sum_univ_two, add_assoc]
    · intro t R ht
      refine comsOn_ok (c := ⟨[⟨0, x'⟩ + R 0 0 • u0 + R 0 1 • u1], [[R 0 0, R 0 1]]⟩) ht (commitG1_iff.mpr ⟨u0, u1, [], hu, ?_⟩) ?_
      · simp only [matOf, List.ofFn_succ, List.ofFn_zero, List.flatten_cons, List.flatten_nil, List.append_nil]
        rfl
      · simp [Fin.sum_univ_two, add_assoc]
  · refine sameComs (m := 1) (p := 2) (by omega) kv.indep2 (x := fun _ => ⟨0, x⟩) (x' := fun _ => ⟨0, x'⟩)
      (fun _ => kv.span2 _) (fun _ => kv.span2 _) ?_ ?_
    · intro t R ht
      refine comsOn_ok (c := ⟨[⟨0, x⟩ + R 0 0 • v0 + R 0 1 • v1], [[R 0 0, R 0 1]]⟩) ht (commitG2_iff.mpr ⟨v0, v1, [], hv, ?_⟩) ?_
      · simp only [matOf, List.ofFn_succ, List.ofFn_zero, List.flatten_cons, List.flatten_nil, List.append_nil]
        rfl
      · simp [Fin.sum_univ_two, add_assoc]
    · intro t R ht
      refine comsOn_ok (c := ⟨[⟨0, x'⟩ + R 0 0 • v0 + R 0 1 • v1], [[R 0 0, R 0 1]]⟩) ht (commitG2_iff.mpr ⟨v0, v1, [], hv, ?_⟩) ?_
      · simp only [matOf, List.ofFn_succ, List.ofFn_zero, List.flatten_cons, List.flatten_nil, List.append_nil]
        rfl
      · simp [Fin.sum_univ_two, add_assoc]
  · refine sameComs (m := 1) (p := 1) (by omega) ku.indep1 (x := fun _ => x • (u1 + ⟨0, crs.g1_gen⟩)) (x' := fun _ => x' • (u1 + ⟨0, crs.g1_gen⟩))
      (fun _ => ku.span1 _) (fun _ => ku.span1 _) ?_ ?_
    · intro t R ht
      refine comsOn_ok (c := ⟨[x • (u1 + ⟨0, crs.g1_gen⟩) + R 0 0 • u0], [[R 0 0]]⟩) ht (commitScalarToB1_iff.mpr ⟨u0, u1, [], hu, ?_⟩) ?_
      · simp only [matOf, List.ofFn_succ, List.ofFn_zero, List.flatten_cons, List.flatten_nil, List.append_nil]
        rfl
      · simp [Fin.sum_univ_two, add_assoc]
    · intro t R ht
      refine comsOn_ok (c := ⟨[x' • (u1 + ⟨0, crs.g1_gen⟩) + R 0 0 • u0], [[R 0 0]]⟩) ht (commitScalarToB1_iff.mpr ⟨u0, u1, [], hu, ?_⟩) ?_
      · simp only [matOf, List.ofFn_succ, List.ofFn_zero, List.flatten_cons, List.flatten_nil, List.append_nil]
        rfl
      · simp [Fin.sum_univ_two, add_assoc]
  · refine sameComs (m := 1) (p := 1) (by omega) kv.indep1 (x := fun _ => x • (v1 + ⟨0, crs.g2_gen⟩)) (x' := fun _ => x' • (v1 + ⟨0, crs.g2_gen⟩))
      (fun _ => kv.span1 _) (fun _ => kv.span1 _) ?_ ?_
    · intro t R ht
      refine comsOn_ok (c := ⟨[x • (v1 + ⟨0, crs.g2_gen⟩) + R 0 0 • v0], [[R 0 0]]⟩) ht (commitScalarToB2_iff.mpr ⟨v0, v1, [], hv, ?_⟩) ?_
      · simp only [matOf, List.ofFn_succ, List.ofFn_zero, List.flatten_cons, List.flatten_nil, List.append_nil]
        rfl
      · simp [Fin.sum_univ_two, add_assoc]
    · intro t R ht
      refine comsOn_ok (c := ⟨[x' • (v1 + ⟨0, crs.g2_gen⟩) + R 0 0 • v0], [[R 0 0]]⟩) ht (commitScalarToB2_iff.mpr ⟨v0, v1, [], hv, ?_⟩) ?_
      · simp only [matOf, List.ofFn_succ, List.ofFn_zero, List.flatten_cons, List.flatten_nil, List.append_nil]
        rfl
      · simp [Fin.sum_univ_two, add_assoc]

/-- C17: every commitment to a value can be opened to every other value of the same kind. -/
theorem C17_openable (he : PrimeGroups e) (hs : SimulatedCrs e crs) (hg : crs.NonzeroGens) :
    (∀ (c : Com G1) (x : G1), CanOpenGroup F crs.u c x) ∧ (∀ (c : Com G2) (y : G2), CanOpenGroup F crs.v c y) ∧
    (∀ (c : Com G1) (x x' : F), CanOpenScalar crs.u crs.g1_gen c x → CanOpenScalar crs.u crs.g1_gen c x') ∧
    (∀ (c : Com G2) (y y' : F), CanOpenScalar crs.v crs.g2_gen c y → CanOpenScalar crs.v crs.g2_gen c y') := by
  obtain ⟨u0, u1, v0, v1, a1, t1, a2, t2, hu, hv, ku, kv⟩ := hs.keys he hg
  refine ⟨?_, ?_, ?_, ?_⟩
  · intro c x
    obtain ⟨rs, hrs, -⟩ := hiding_basis ku.ne ku.cyc a1 t1 (c - ⟨0, x⟩)
    refine ⟨u0, u1, [], hu, rs, ?_⟩
    rw [groupCom, add_assoc, ku.h0, ku.h1, ← hrs]; abel
  · intro c x
    obtain ⟨rs, hrs, -⟩ := hiding_basis kv.ne kv.cyc a2 t2 (c - ⟨0, x⟩)
    refine ⟨v0, v1, [], hv, rs, ?_⟩
    rw [groupCom, add_assoc, kv.h0, kv.h1, ← hrs]; abel
  · rintro c x x' ⟨w0, w1, w, hw, r, rfl⟩
    rw [hu] at hw; cases hw
    refine ⟨u0, u1, [], hu, r + (x - x') * t1, ?_⟩
    rw [scalarCom, scalarCom, ku.lift]; module
  · rintro c x x' ⟨w0, w1, w, hw, r, rfl⟩
    rw [hv] at hw; cases hw
    refine ⟨v0, v1, [], hv, r + (x - x') * t2, ?_⟩
    rw [scalarCom, scalarCom, kv.lift]; module

example (x x' : Ex.K) : SameViews (N := 2) (comsOn fun rng => commitG1 (F := Ex.K) x Ex.sim7 rng)
    (comsOn fun rng => commitG1 (F := Ex.K) x' Ex.sim7 rng) :=
  (C17_single Ex.prime7 Ex.sim7_simulated Ex.sim7_nonzero).1 x x'

/-! ### Instances -/

namespace Ex

example := C17_batch prime7 sim7_simulated sim7_nonzero
example (sch sch' : Nat → Scheduler) := C13_ppe prime7 sim7_simulated sim7_nonzero ppe7 [2] [0] [3, 4] [1, 0] (by simp) (by simp) ppe7_dims rfl rfl ppe7_holds ppe7_holds' sch sch'
example (sch sch' : Nat → Scheduler) := C14_msmeg1 prime7 sim7_simulated sim7_nonzero msm1_7 [2] [0] [3, 4] [1, 0] (by simp) (by simp) msm1_7_dims rfl rfl msm1_7_holds msm1_7_holds' sch sch'
example (sch sch' : Nat → Scheduler) := C15_msmeg2 prime7 sim7_simulated sim7_nonzero msm2_7 [2] [0] [3, 4] [1, 0] (by simp) (by simp) msm2_7_dims rfl rfl msm2_7_holds msm2_7_holds' sch sch'
example (sch sch' : Nat → Scheduler) := C16_quad prime7 sim7_simulated sim7_nonzero quad7 [2] [0] [3, 4] [1, 0] (by simp) (by simp) quad7_dims rfl rfl quad7_holds quad7_holds' sch sch'

end Ex

end GS
