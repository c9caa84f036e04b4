import Verif.Lemmas.RandLeak
import Verif.Props.Simulation
import Verif.Props.Example

/-!
# C64: a published proof reveals part of the witness through its `rand` field

The commitment randomness is secret here, only values of commitments and whole `EquProof`s are published (`proofsOn`).
`C64_..._formula`: on every CRS a bystander computes `Σ_i F(ι(x_i), ι(b_i) + Σ_j γ_ij d_j)`, where `d` are the commitments on
the right. `C64_..._exact`: on a hiding CRS, what is revealed is exactly `Γᵀ x` and `x · b`.
-/

set_option linter.unusedSectionVars false

namespace GS
variable {F G1 G2 GT : Type} [Field F] [AddCommGroup G1] [Module F G1] [AddCommGroup G2] [Module F G2]
  [AddCommGroup GT] [Module F GT] {e : G1 →ₗ[F] G2 →ₗ[F] GT} {crs : CRS G1 G2 GT}

theorem HidingKey.coords {G : Type} [AddCommGroup G] [Module F G] {g : G} {a t : F} {u0 u1 : Com G}
    (h : HidingKey g a t u0 u1) (c : Com G) : ∃ s : Fin 2 → F, c = ∑ k, s k • ![u0, u1] k := by
  obtain ⟨s, hs⟩ := (Submodule.mem_span_range_iff_exists_fun F).mp (h.span2 c)
  exact ⟨s, hs.symm⟩

theorem HidingKey.coords1 {G : Type} [AddCommGroup G] [Module F G] {g : G} {a t : F} {u0 u1 : Com G}
    (h : HidingKey g a t u0 u1) : u1 + ⟨0, g⟩ = ∑ k, ![t] k • ![u0] k := by
  simp [h.lift]

/-- C64: what a bystander learns from a PPE proof made with any commitments, on any CRS. -/
theorem C64_ppe_formula {ρ : Type} [Rng ρ F G1 G2] {u0 u1 : Com G1} {v0 v1 : Com G2} (hu : crs.u = [u0, u1]) (hv : crs.v = [v0, v1])
    (equ : PPE F G1 G2 GT) (x : List G1) (y : List G2) (xc : Commit F G1) (yc : Commit F G2)
    (hxc : xc.OpensGroup crs.u x) (hyc : yc.OpensGroup crs.v y) (sch : Nat → Scheduler) (rng rng' : ρ) (pf : EquProof F G1 G2)
    (h : equ.prove sch x y xc yc crs rng = .ok (pf, rng')) :
    bystander e crs (equ.b_consts.map fun b => (⟨0, b⟩ : Com G2)) equ.gamma xc.coms yc.coms pf =
      pairSum e (x.map fun x => (⟨0, x⟩ : Com G1)) (weights (equ.b_consts.map fun b => (⟨0, b⟩ : Com G2)) equ.gamma yc.coms) := by
  obtain ⟨hx, hy, -, -, hd, -, -⟩ := PPE.prove_dom.mp ⟨_, h⟩
  have hm := List.length_pos_iff.mpr hx
  have hn := List.length_pos_iff.mpr hy
  obtain ⟨m, hxm⟩ : ∃ m, x.length = m := ⟨_, rfl⟩
  obtain ⟨n, hyn⟩ : ∃ n, y.length = n := ⟨_, rfl⟩
  rw [hxm] at hm hd
  rw [hyn] at hn hd
  obtain ⟨a, ha⟩ := exists_ofFn equ.a_consts hd.a
  obtain ⟨b, hb⟩ := exists_ofFn equ.b_consts hd.b
  obtain ⟨γ, hγ⟩ := rect_iff.mp (⟨hd.rows, hd.cols⟩ : Rect _ _ equ.gamma)
  obtain ⟨x, rfl⟩ := exists_ofFn x hxm
  obtain ⟨y, rfl⟩ := exists_ofFn y hyn
  rw [hu, opensGroup_ofFn] at hxc
  rw [hv, opensGroup_ofFn] at hyc
  obtain ⟨_, _, _, h1, R, hR, cx⟩ := hxc
  cases h1
  obtain ⟨_, _, _, h1, S, hS, cy⟩ := hyc
  cases h1
  rw [PPE.prove_closed hm hn ha hb hγ x y hR hS hu hv (T := ![![_, _], ![_, _]]) rfl rfl] at h
  obtain ⟨rfl, -⟩ := Prod.mk.inj (Except.ok.inj h)
  rw [cx, cy, hγ, hb, List.map_ofFn, List.map_ofFn]
  exact bystander_ofFn e (u' := []) (v' := []) (by rw [hu]; simp [List.ofFn_succ]) (by rw [hv]; simp [List.ofFn_succ]) _ _ _ γ R S _ _ _

/-- C64: on a hiding CRS, whole PPE proofs for two solutions have the same distribution exactly if the solutions agree on
the leaked terms. -/
theorem C64_ppe_exact (he : PrimeGroups e) {p1 : G1} {p2 : G2} (h1 : p1 ≠ 0) (h2 : p2 ≠ 0) {a1 a2 t1 t2 : F}
    (equ : PPE F G1 G2 GT) (x x' : List G1) (y y' : List G2) (hx : x ≠ []) (hy : y ≠ []) (hd : equ.Dims x.length y.length)
    (hlx : x'.length = x.length) (hly : y'.length = y.length) (h : equ.Holds e x y) (h' : equ.Holds e x' y')
    (sch sch' : Nat → Scheduler) :
    let crs := assembleCrs e prepareSimulatedHidingKey p1 p2 a1 a2 t1 t2
    SameViews (N := 2 * x.length + 2 * y.length + 4) (proofsOn fun rng => equ.commitAndProve sch x y crs rng)
      (proofsOn fun rng => equ.commitAndProve sch' x' y' crs rng) ↔ equ.leak e x = equ.leak e x' := by
  intro crs
  obtain ⟨u0, u1, v0, v1, hu, hv, ku, kv⟩ := simulated_keys he h1 h2 (a1 := a1) (a2 := a2) (t1 := t1) (t2 := t2)
  change crs.u = [u0, u1] at hu
  change crs.v = [v0, v1] at hv
  change HidingKey crs.g1_gen a1 t1 u0 u1 at ku
  change HidingKey crs.g2_gen a2 t2 v0 v1 at kv
  generalize crs = crs at hu hv ku kv
  have hm := List.length_pos_iff.mpr hx
  have hn := List.length_pos_iff.mpr hy
  obtain ⟨m, hxm⟩ : ∃ m, x.length = m := ⟨_, rfl⟩
  obtain ⟨n, hyn⟩ : ∃ n, y.length = n := ⟨_, rfl⟩
  rw [hxm] at hm hd hlx
  rw [hyn] at hn hd hly
  rw [hxm, hyn]
  obtain ⟨a, ha⟩ := exists_ofFn equ.a_consts hd.a
  obtain ⟨b, hb⟩ := exists_ofFn equ.b_consts hd.b
  obtain ⟨γ, hγ⟩ := rect_iff.mp (⟨hd.rows, hd.cols⟩ : Rect _ _ equ.gamma)
  obtain ⟨x, rfl⟩ := exists_ofFn x hxm
  obtain ⟨y, rfl⟩ := exists_ofFn y hyn
  obtain ⟨x', rfl⟩ := exists_ofFn x' hlx
  obtain ⟨y', rfl⟩ := exists_ofFn y' hly
  obtain ⟨a, rfl⟩ := exists_scalars ku.cyc a
  obtain ⟨x, rfl⟩ := exists_scalars ku.cyc x
  obtain ⟨x', rfl⟩ := exists_scalars ku.cyc x'
  obtain ⟨b, rfl⟩ := exists_scalars kv.cyc b
  obtain ⟨y, rfl⟩ := exists_scalars kv.cyc y
  obtain ⟨y', rfl⟩ := exists_scalars kv.cyc y'
  have hg : e crs.g1_gen crs.g2_gen ≠ 0 := fun h0 => (he.nondeg _ _ h0).elim ku.ne kv.ne
  obtain ⟨s, hs⟩ : ∃ s : Fin 2 → F, (i1 (F := F) crs.g1_gen) = ∑ k, s k • ![u0, u1] k := ku.coords _
  obtain ⟨s', hs'⟩ : ∃ s : Fin 2 → F, (i2 (F := F) crs.g2_gen) = ∑ k, s k • ![v0, v1] k := kv.coords _
  have hτ : ComT.pairL e (i1 (F := F) crs.g1_gen) (i2 (F := F) crs.g2_gen) ≠ 0 := by
    intro h0
    exact hg (congrArg ComT.t3 h0)
  have heq := h.trans h'.symm
  rw [ha, hb, hγ, equLhs_scalar (fun x y => e x y) (fun r => r • crs.g1_gen) (fun r => r • crs.g2_gen) (e crs.g1_gen crs.g2_gen) (fun x y => by simp [smul_smul, mul_comm]),
    equLhs_scalar (fun x y => e x y) (fun r => r • crs.g1_gen) (fun r => r • crs.g2_gen) (e crs.g1_gen crs.g2_gen) (fun x y => by simp [smul_smul, mul_comm])] at heq
  have heq := smul_cancel hg heq
  rw [sameViews_iff (p := 2) (q := 2) (by omega) (fullPub_inj _) (PPE.full_eq hm hn ha hb hγ _ _ hu hv)
    (PPE.full_eq hm hn ha hb hγ _ _ hu hv)]
  simp only [map_smul]
  rw [fullFn_iff (ComT.pairL e) hs hs' hτ a b γ x x' y y' heq]
  rw [PPE.leak, PPE.leak, Prod.mk.injEq, ha, hb, hγ, List.length_ofFn, colSums_smul_inj ku.ne]
  refine and_congr_right fun _ => ?_
  rw [zipWith_ofFn, zipWith_ofFn, List.sum_ofFn, List.sum_ofFn]
  rw [← sum_smul_inj hg]
  simp only [map_smul, LinearMap.smul_apply, smul_smul, mul_comm]

/-- C64: what a bystander learns from a MSMEG1 proof made with any commitments, on any CRS. -/
theorem C64_msmeg1_formula {ρ : Type} [Rng ρ F G1 G2] {u0 u1 : Com G1} {v0 v1 : Com G2} (hu : crs.u = [u0, u1]) (hv : crs.v = [v0, v1])
    (equ : MSMEG1 F G1) (x : List G1) (y : List F) (xc : Commit F G1) (yc : Commit F G2)
    (hxc : xc.OpensGroup crs.u x) (hyc : yc.OpensScalar crs.v crs.g2_gen y) (sch : Nat → Scheduler) (rng rng' : ρ) (pf : EquProof F G1 G2)
    (h : equ.prove sch x y xc yc crs rng = .ok (pf, rng')) :
    bystander e crs (equ.b_consts.map fun b => b • (v1 + ⟨0, crs.g2_gen⟩)) equ.gamma xc.coms yc.coms pf =
      pairSum e (x.map fun x => (⟨0, x⟩ : Com G1)) (weights (equ.b_consts.map fun b => b • (v1 + ⟨0, crs.g2_gen⟩)) equ.gamma yc.coms) := by
  obtain ⟨hx, hy, -, -, hd, -, -⟩ := MSMEG1.prove_dom.mp ⟨_, h⟩
  have hm := List.length_pos_iff.mpr hx
  have hn := List.length_pos_iff.mpr hy
  obtain ⟨m, hxm⟩ : ∃ m, x.length = m := ⟨_, rfl⟩
  obtain ⟨n, hyn⟩ : ∃ n, y.length = n := ⟨_, rfl⟩
  rw [hxm] at hm hd
  rw [hyn] at hn hd
  obtain ⟨a, ha⟩ := exists_ofFn equ.a_consts hd.a
  obtain ⟨b, hb⟩ := exists_ofFn equ.b_consts hd.b
  obtain ⟨γ, hγ⟩ := rect_iff.mp (⟨hd.rows, hd.cols⟩ : Rect _ _ equ.gamma)
  obtain ⟨x, rfl⟩ := exists_ofFn x hxm
  obtain ⟨y, rfl⟩ := exists_ofFn y hyn
  rw [hu, opensGroup_ofFn] at hxc
  rw [hv, opensScalar_ofFn] at hyc
  obtain ⟨_, _, _, h1, R, hR, cx⟩ := hxc
  cases h1
  obtain ⟨_, _, _, h1, S, hS, cy⟩ := hyc
  cases h1
  rw [MSMEG1.prove_closed hm hn ha hb hγ x y hR hS hu hv (T := ![![_, _]]) rfl rfl] at h
  obtain ⟨rfl, -⟩ := Prod.mk.inj (Except.ok.inj h)
  rw [cx, cy, hγ, hb, List.map_ofFn, List.map_ofFn]
  exact bystander_ofFn e (u' := []) (v' := [v1]) (by rw [hu]; simp [List.ofFn_succ]) (by rw [hv]; simp [List.ofFn_succ]) _ _ _ γ R S _ _ _

/-- C64: on a hiding CRS, whole MSMEG1 proofs for two solutions have the same distribution exactly if the solutions agree on
the leaked terms. -/
theorem C64_msmeg1_exact (he : PrimeGroups e) {p1 : G1} {p2 : G2} (h1 : p1 ≠ 0) (h2 : p2 ≠ 0) {a1 a2 t1 t2 : F} (z2 : t2 ≠ 0)
    (equ : MSMEG1 F G1) (x x' : List G1) (y y' : List F) (hx : x ≠ []) (hy : y ≠ []) (hd : equ.Dims x.length y.length)
    (hlx : x'.length = x.length) (hly : y'.length = y.length) (h : equ.Holds x y) (h' : equ.Holds x' y')
    (sch sch' : Nat → Scheduler) :
    let crs := assembleCrs e prepareSimulatedHidingKey p1 p2 a1 a2 t1 t2
    SameViews (N := 2 * x.length + y.length + 2) (proofsOn fun rng => equ.commitAndProve sch x y crs rng)
      (proofsOn fun rng => equ.commitAndProve sch' x' y' crs rng) ↔ equ.leak x = equ.leak x' := by
  intro crs
  obtain ⟨u0, u1, v0, v1, hu, hv, ku, kv⟩ := simulated_keys he h1 h2 (a1 := a1) (a2 := a2) (t1 := t1) (t2 := t2)
  change crs.u = [u0, u1] at hu
  change crs.v = [v0, v1] at hv
  change HidingKey crs.g1_gen a1 t1 u0 u1 at ku
  change HidingKey crs.g2_gen a2 t2 v0 v1 at kv
  generalize crs = crs at hu hv ku kv
  have hm := List.length_pos_iff.mpr hx
  have hn := List.length_pos_iff.mpr hy
  obtain ⟨m, hxm⟩ : ∃ m, x.length = m := ⟨_, rfl⟩
  obtain ⟨n, hyn⟩ : ∃ n, y.length = n := ⟨_, rfl⟩
  rw [hxm] at hm hd hlx
  rw [hyn] at hn hd hly
  rw [hxm, hyn]
  obtain ⟨a, ha⟩ := exists_ofFn equ.a_consts hd.a
  obtain ⟨b, hb⟩ := exists_ofFn equ.b_consts hd.b
  obtain ⟨γ, hγ⟩ := rect_iff.mp (⟨hd.rows, hd.cols⟩ : Rect _ _ equ.gamma)
  obtain ⟨x, rfl⟩ := exists_ofFn x hxm
  obtain ⟨y, rfl⟩ := exists_ofFn y hyn
  obtain ⟨x', rfl⟩ := exists_ofFn x' hlx
  obtain ⟨y', rfl⟩ := exists_ofFn y' hly
  obtain ⟨a, rfl⟩ := exists_scalars ku.cyc a
  obtain ⟨x, rfl⟩ := exists_scalars ku.cyc x
  obtain ⟨x', rfl⟩ := exists_scalars ku.cyc x'
  have hg : e crs.g1_gen crs.g2_gen ≠ 0 := fun h0 => (he.nondeg _ _ h0).elim ku.ne kv.ne
  obtain ⟨s, hs⟩ : ∃ s : Fin 2 → F, (i1 (F := F) crs.g1_gen) = ∑ k, s k • ![u0, u1] k := ku.coords _
  obtain ⟨s', hs'⟩ : ∃ s : Fin 1 → F, (v1 + ⟨0, crs.g2_gen⟩) = ∑ k, s k • ![v0] k := ⟨_, kv.coords1⟩
  have hτ : ComT.pairL e (i1 (F := F) crs.g1_gen) (v1 + ⟨0, crs.g2_gen⟩) ≠ 0 := by
    rw [kv.lift, map_smul, kv.h0]
    intro h0
    exact hg (congrArg ComT.t2 ((smul_eq_zero.mp h0).resolve_left z2))
  have heq := h.trans h'.symm
  rw [ha, hb, hγ, equLhs_scalar (fun (x : G1) (y : F) => y • x) (fun r => r • crs.g1_gen) (fun r => r) crs.g1_gen (fun x y => by simp [smul_smul, mul_comm]),
    equLhs_scalar (fun (x : G1) (y : F) => y • x) (fun r => r • crs.g1_gen) (fun r => r) crs.g1_gen (fun x y => by simp [smul_smul, mul_comm])] at heq
  have heq := smul_cancel ku.ne heq
  rw [sameViews_iff (p := 2) (q := 1) (by omega) (fullPub_inj _) (MSMEG1.full_eq hm hn ha hb hγ _ _ hu hv)
    (MSMEG1.full_eq hm hn ha hb hγ _ _ hu hv)]
  simp only [map_smul]
  rw [fullFn_iff (ComT.pairL e) hs hs' hτ a b γ x x' y y' heq]
  rw [MSMEG1.leak, MSMEG1.leak, Prod.mk.injEq, ha, hb, hγ, List.length_ofFn, colSums_smul_inj ku.ne]
  refine and_congr_right fun _ => ?_
  rw [zipWith_ofFn, zipWith_ofFn, List.sum_ofFn, List.sum_ofFn]
  rw [← sum_smul_inj ku.ne]
  simp only [smul_smul, mul_comm]

/-- C64: what a bystander learns from a MSMEG2 proof made with any commitments, on any CRS. -/
theorem C64_msmeg2_formula {ρ : Type} [Rng ρ F G1 G2] {u0 u1 : Com G1} {v0 v1 : Com G2} (hu : crs.u = [u0, u1]) (hv : crs.v = [v0, v1])
    (equ : MSMEG2 F G2) (x : List F) (y : List G2) (xc : Commit F G1) (yc : Commit F G2)
    (hxc : xc.OpensScalar crs.u crs.g1_gen x) (hyc : yc.OpensGroup crs.v y) (sch : Nat → Scheduler) (rng rng' : ρ) (pf : EquProof F G1 G2)
    (h : equ.prove sch x y xc yc crs rng = .ok (pf, rng')) :
    bystander e crs (equ.b_consts.map fun b => (⟨0, b⟩ : Com G2)) equ.gamma xc.coms yc.coms pf =
      pairSum e (x.map fun x => x • (u1 + ⟨0, crs.g1_gen⟩)) (weights (equ.b_consts.map fun b => (⟨0, b⟩ : Com G2)) equ.gamma yc.coms) := by
  obtain ⟨hx, hy, -, -, hd, -, -⟩ := MSMEG2.prove_dom.mp ⟨_, h⟩
  have hm := List.length_pos_iff.mpr hx
  have hn := List.length_pos_iff.mpr hy
  obtain ⟨m, hxm⟩ : ∃ m, x.length = m := ⟨_, rfl⟩
  obtain ⟨n, hyn⟩ : ∃ n, y.length = n := ⟨_, rfl⟩
  rw [hxm] at hm hd
  rw [hyn] at hn hd
  obtain ⟨a, ha⟩ := exists_ofFn equ.a_consts hd.a
  obtain ⟨b, hb⟩ := exists_ofFn equ.b_consts hd.b
  obtain ⟨γ, hγ⟩ := rect_iff.mp (⟨hd.rows, hd.cols⟩ : Rect _ _ equ.gamma)
  obtain ⟨x, rfl⟩ := exists_ofFn x hxm
  obtain ⟨y, rfl⟩ := exists_ofFn y hyn
  rw [hu, opensScalar_ofFn] at hxc
  rw [hv, opensGroup_ofFn] at hyc
  obtain ⟨_, _, _, h1, R, hR, cx⟩ := hxc
  cases h1
  obtain ⟨_, _, _, h1, S, hS, cy⟩ := hyc
  cases h1
  rw [MSMEG2.prove_closed hm hn ha hb hγ x y hR hS hu hv (T := ![![_], ![_]]) rfl rfl] at h
  obtain ⟨rfl, -⟩ := Prod.mk.inj (Except.ok.inj h)
  rw [cx, cy, hγ, hb, List.map_ofFn, List.map_ofFn]
  exact bystander_ofFn e (u' := [u1]) (v' := []) (by rw [hu]; simp [List.ofFn_succ]) (by rw [hv]; simp [List.ofFn_succ]) _ _ _ γ R S _ _ _

/-- C64: on a hiding CRS, whole MSMEG2 proofs for two solutions have the same distribution exactly if the solutions agree on
the leaked terms. -/
theorem C64_msmeg2_exact (he : PrimeGroups e) {p1 : G1} {p2 : G2} (h1 : p1 ≠ 0) (h2 : p2 ≠ 0) {a1 a2 t1 t2 : F} (z1 : t1 ≠ 0)
    (equ : MSMEG2 F G2) (x x' : List F) (y y' : List G2) (hx : x ≠ []) (hy : y ≠ []) (hd : equ.Dims x.length y.length)
    (hlx : x'.length = x.length) (hly : y'.length = y.length) (h : equ.Holds x y) (h' : equ.Holds x' y')
    (sch sch' : Nat → Scheduler) :
    let crs := assembleCrs e prepareSimulatedHidingKey p1 p2 a1 a2 t1 t2
    SameViews (N := x.length + 2 * y.length + 2) (proofsOn fun rng => equ.commitAndProve sch x y crs rng)
      (proofsOn fun rng => equ.commitAndProve sch' x' y' crs rng) ↔ equ.leak x = equ.leak x' := by
  intro crs
  obtain ⟨u0, u1, v0, v1, hu, hv, ku, kv⟩ := simulated_keys he h1 h2 (a1 := a1) (a2 := a2) (t1 := t1) (t2 := t2)
  change crs.u = [u0, u1] at hu
  change crs.v = [v0, v1] at hv
  change HidingKey crs.g1_gen a1 t1 u0 u1 at ku
  change HidingKey crs.g2_gen a2 t2 v0 v1 at kv
  generalize crs = crs at hu hv ku kv
  have hm := List.length_pos_iff.mpr hx
  have hn := List.length_pos_iff.mpr hy
  obtain ⟨m, hxm⟩ : ∃ m, x.length = m := ⟨_, rfl⟩
  obtain ⟨n, hyn⟩ : ∃ n, y.length = n := ⟨_, rfl⟩
  rw [hxm] at hm hd hlx
  rw [hyn] at hn hd hly
  rw [hxm, hyn]
  obtain ⟨a, ha⟩ := exists_ofFn equ.a_consts hd.a
  obtain ⟨b, hb⟩ := exists_ofFn equ.b_consts hd.b
  obtain ⟨γ, hγ⟩ := rect_iff.mp (⟨hd.rows, hd.cols⟩ : Rect _ _ equ.gamma)
  obtain ⟨x, rfl⟩ := exists_ofFn x hxm
  obtain ⟨y, rfl⟩ := exists_ofFn y hyn
  obtain ⟨x', rfl⟩ := exists_ofFn x' hlx
  obtain ⟨y', rfl⟩ := exists_ofFn y' hly
  obtain ⟨b, rfl⟩ := exists_scalars kv.cyc b
  obtain ⟨y, rfl⟩ := exists_scalars kv.cyc y
  obtain ⟨y', rfl⟩ := exists_scalars kv.cyc y'
  have hg : e crs.g1_gen crs.g2_gen ≠ 0 := fun h0 => (he.nondeg _ _ h0).elim ku.ne kv.ne
  obtain ⟨s, hs⟩ : ∃ s : Fin 1 → F, (u1 + ⟨0, crs.g1_gen⟩) = ∑ k, s k • ![u0] k := ⟨_, ku.coords1⟩
  obtain ⟨s', hs'⟩ : ∃ s : Fin 2 → F, (i2 (F := F) crs.g2_gen) = ∑ k, s k • ![v0, v1] k := kv.coords _
  have hτ : ComT.pairL e (u1 + ⟨0, crs.g1_gen⟩) (i2 (F := F) crs.g2_gen) ≠ 0 := by
    rw [ku.lift, map_smul, LinearMap.smul_apply, ku.h0]
    intro h0
    exact hg (congrArg ComT.t1 ((smul_eq_zero.mp h0).resolve_left z1))
  have heq := h.trans h'.symm
  rw [ha, hb, hγ, equLhs_scalar (fun (x : F) (y : G2) => x • y) (fun r => r) (fun r => r • crs.g2_gen) crs.g2_gen (fun x y => by simp [smul_smul, mul_comm]),
    equLhs_scalar (fun (x : F) (y : G2) => x • y) (fun r => r) (fun r => r • crs.g2_gen) crs.g2_gen (fun x y => by simp [smul_smul, mul_comm])] at heq
  have heq := smul_cancel kv.ne heq
  rw [sameViews_iff (p := 1) (q := 2) (by omega) (fullPub_inj _) (MSMEG2.full_eq hm hn ha hb hγ _ _ hu hv)
    (MSMEG2.full_eq hm hn ha hb hγ _ _ hu hv)]
  simp only [map_smul]
  rw [fullFn_iff (ComT.pairL e) hs hs' hτ a b γ x x' y y' heq]
  rw [MSMEG2.leak, MSMEG2.leak, Prod.mk.injEq, ha, hb, hγ, List.length_ofFn, colSums_inj]
  refine and_congr_right fun _ => ?_
  rw [zipWith_ofFn, zipWith_ofFn, List.sum_ofFn, List.sum_ofFn]
  rw [← sum_smul_inj kv.ne]
  simp only [smul_smul]

/-- C64: what a bystander learns from a QuadEqu proof made with any commitments, on any CRS. -/
theorem C64_quad_formula {ρ : Type} [Rng ρ F G1 G2] {u0 u1 : Com G1} {v0 v1 : Com G2} (hu : crs.u = [u0, u1]) (hv : crs.v = [v0, v1])
    (equ : QuadEqu F) (x : List F) (y : List F) (xc : Commit F G1) (yc : Commit F G2)
    (hxc : xc.OpensScalar crs.u crs.g1_gen x) (hyc : yc.OpensScalar crs.v crs.g2_gen y) (sch : Nat → Scheduler) (rng rng' : ρ) (pf : EquProof F G1 G2)
    (h : equ.prove sch x y xc yc crs rng = .ok (pf, rng')) :
    bystander e crs (equ.b_consts.map fun b => b • (v1 + ⟨0, crs.g2_gen⟩)) equ.gamma xc.coms yc.coms pf =
      pairSum e (x.map fun x => x • (u1 + ⟨0, crs.g1_gen⟩)) (weights (equ.b_consts.map fun b => b • (v1 + ⟨0, crs.g2_gen⟩)) equ.gamma yc.coms) := by
  obtain ⟨hx, hy, -, -, hd, -, -⟩ := QuadEqu.prove_dom.mp ⟨_, h⟩
  have hm := List.length_pos_iff.mpr hx
  have hn := List.length_pos_iff.mpr hy
  obtain ⟨m, hxm⟩ : ∃ m, x.length = m := ⟨_, rfl⟩
  obtain ⟨n, hyn⟩ : ∃ n, y.length = n := ⟨_, rfl⟩
  rw [hxm] at hm hd
  rw [hyn] at hn hd
  obtain ⟨a, ha⟩ := exists_ofFn equ.a_consts hd.a
  obtain ⟨b, hb⟩ := exists_ofFn equ.b_consts hd.b
  obtain ⟨γ, hγ⟩ := rect_iff.mp (⟨hd.rows, hd.cols⟩ : Rect _ _ equ.gamma)
  obtain ⟨x, rfl⟩ := exists_ofFn x hxm
  obtain ⟨y, rfl⟩ := exists_ofFn y hyn
  rw [hu, opensScalar_ofFn] at hxc
  rw [hv, opensScalar_ofFn] at hyc
  obtain ⟨_, _, _, h1, R, hR, cx⟩ := hxc
  cases h1
  obtain ⟨_, _, _, h1, S, hS, cy⟩ := hyc
  cases h1
  rw [QuadEqu.prove_closed hm hn ha hb hγ x y hR hS hu hv (T := ![![_]]) rfl rfl] at h
  obtain ⟨rfl, -⟩ := Prod.mk.inj (Except.ok.inj h)
  rw [cx, cy, hγ, hb, List.map_ofFn, List.map_ofFn]
  exact bystander_ofFn e (u' := [u1]) (v' := [v1]) (by rw [hu]; simp [List.ofFn_succ]) (by rw [hv]; simp [List.ofFn_succ]) _ _ _ γ R S _ _ _

/-- C64: on a hiding CRS, whole QuadEqu proofs for two solutions have the same distribution exactly if the solutions agree on
the leaked terms. -/
theorem C64_quad_exact (he : PrimeGroups e) {p1 : G1} {p2 : G2} (h1 : p1 ≠ 0) (h2 : p2 ≠ 0) {a1 a2 t1 t2 : F} (z1 : t1 ≠ 0) (z2 : t2 ≠ 0)
    (equ : QuadEqu F) (x x' : List F) (y y' : List F) (hx : x ≠ []) (hy : y ≠ []) (hd : equ.Dims x.length y.length)
    (hlx : x'.length = x.length) (hly : y'.length = y.length) (h : equ.Holds x y) (h' : equ.Holds x' y')
    (sch sch' : Nat → Scheduler) :
    let crs := assembleCrs e prepareSimulatedHidingKey p1 p2 a1 a2 t1 t2
    SameViews (N := x.length + y.length + 1) (proofsOn fun rng => equ.commitAndProve sch x y crs rng)
      (proofsOn fun rng => equ.commitAndProve sch' x' y' crs rng) ↔ equ.leak x = equ.leak x' := by
  intro crs
  obtain ⟨u0, u1, v0, v1, hu, hv, ku, kv⟩ := simulated_keys he h1 h2 (a1 := a1) (a2 := a2) (t1 := t1) (t2 := t2)
  change crs.u = [u0, u1] at hu
  change crs.v = [v0, v1] at hv
  change HidingKey crs.g1_gen a1 t1 u0 u1 at ku
  change HidingKey crs.g2_gen a2 t2 v0 v1 at kv
  generalize crs = crs at hu hv ku kv
  have hm := List.length_pos_iff.mpr hx
  have hn := List.length_pos_iff.mpr hy
  obtain ⟨m, hxm⟩ : ∃ m, x.length = m := ⟨_, rfl⟩
  obtain ⟨n, hyn⟩ : ∃ n, y.length = n := ⟨_, rfl⟩
  rw [hxm] at hm hd hlx
  rw [hyn] at hn hd hly
  rw [hxm, hyn]
  obtain ⟨a, ha⟩ := exists_ofFn equ.a_consts hd.a
  obtain ⟨b, hb⟩ := exists_ofFn equ.b_consts hd.b
  obtain ⟨γ, hγ⟩ := rect_iff.mp (⟨hd.rows, hd.cols⟩ : Rect _ _ equ.gamma)
  obtain ⟨x, rfl⟩ := exists_ofFn x hxm
  obtain ⟨y, rfl⟩ := exists_ofFn y hyn
  obtain ⟨x', rfl⟩ := exists_ofFn x' hlx
  obtain ⟨y', rfl⟩ := exists_ofFn y' hly
  have hg : e crs.g1_gen crs.g2_gen ≠ 0 := fun h0 => (he.nondeg _ _ h0).elim ku.ne kv.ne
  obtain ⟨s, hs⟩ : ∃ s : Fin 1 → F, (u1 + ⟨0, crs.g1_gen⟩) = ∑ k, s k • ![u0] k := ⟨_, ku.coords1⟩
  obtain ⟨s', hs'⟩ : ∃ s : Fin 1 → F, (v1 + ⟨0, crs.g2_gen⟩) = ∑ k, s k • ![v0] k := ⟨_, kv.coords1⟩
  have hτ : ComT.pairL e (u1 + ⟨0, crs.g1_gen⟩) (v1 + ⟨0, crs.g2_gen⟩) ≠ 0 := by
    rw [ku.lift, kv.lift, map_smul, map_smul, LinearMap.smul_apply, ku.h0, kv.h0]
    intro h0
    exact hg (congrArg ComT.t0 ((smul_eq_zero.mp ((smul_eq_zero.mp h0).resolve_left z2)).resolve_left z1))
  have heq := h.trans h'.symm
  rw [ha, hb, hγ, equLhs_scalar (fun (x y : F) => x * y) (fun r => r) (fun r => r) (1 : F) (fun x y => by simp),
    equLhs_scalar (fun (x y : F) => x * y) (fun r => r) (fun r => r) (1 : F) (fun x y => by simp)] at heq
  have heq := smul_cancel one_ne_zero heq
  rw [sameViews_iff (p := 1) (q := 1) (by omega) (fullPub_inj _) (QuadEqu.full_eq hm hn ha hb hγ _ _ hu hv)
    (QuadEqu.full_eq hm hn ha hb hγ _ _ hu hv)]
  rw [fullFn_iff (ComT.pairL e) hs hs' hτ a b γ x x' y y' heq]
  rw [QuadEqu.leak, QuadEqu.leak, Prod.mk.injEq, ha, hb, hγ, List.length_ofFn, colSums_inj]
  refine and_congr_right fun _ => ?_
  rw [zipWith_ofFn, zipWith_ofFn, List.sum_ofFn, List.sum_ofFn]

/-- Two solutions of `ppe7` are told apart by the published proof, on the CRS for which commitments reveal nothing. -/
example (sch sch' : Nat → Scheduler) :
    ¬ SameViews (N := 10) (proofsOn fun rng => Ex.ppe7.commitAndProve sch [2] [3, 4] Ex.sim7 rng)
    (proofsOn fun rng => Ex.ppe7.commitAndProve sch' [0] [1, 0] Ex.sim7 rng) := fun h =>
  absurd ((C64_ppe_exact Ex.prime7 (by decide) (by decide) Ex.ppe7 [2] [0] [3, 4] [1, 0] (by simp) (by simp) Ex.ppe7_dims rfl rfl
    Ex.ppe7_holds Ex.ppe7_holds' _ _).mp h) (by unfold PPE.leak; decide)

/-- Two solutions of `msm1_7` are told apart by the published proof, on the CRS for which commitments reveal nothing. -/
example (sch sch' : Nat → Scheduler) :
    ¬ SameViews (N := 6) (proofsOn fun rng => Ex.msm1_7.commitAndProve sch [2] [3, 4] Ex.sim7 rng)
    (proofsOn fun rng => Ex.msm1_7.commitAndProve sch' [0] [1, 0] Ex.sim7 rng) := fun h =>
  absurd ((C64_msmeg1_exact Ex.prime7 (by decide) (by decide) (by decide) Ex.msm1_7 [2] [0] [3, 4] [1, 0] (by simp) (by simp) Ex.msm1_7_dims rfl rfl
    Ex.msm1_7_holds Ex.msm1_7_holds' _ _).mp h) (by unfold MSMEG1.leak; decide)

/-- Two solutions of `msm2_7` are told apart by the published proof, on the CRS for which commitments reveal nothing. -/
example (sch sch' : Nat → Scheduler) :
    ¬ SameViews (N := 7) (proofsOn fun rng => Ex.msm2_7.commitAndProve sch [2] [3, 4] Ex.sim7 rng)
    (proofsOn fun rng => Ex.msm2_7.commitAndProve sch' [0] [1, 0] Ex.sim7 rng) := fun h =>
  absurd ((C64_msmeg2_exact Ex.prime7 (by decide) (by decide) (by decide) Ex.msm2_7 [2] [0] [3, 4] [1, 0] (by simp) (by simp) Ex.msm2_7_dims rfl rfl
    Ex.msm2_7_holds Ex.msm2_7_holds' _ _).mp h) (by unfold MSMEG2.leak; decide)

/-- Two solutions of `quad7` are told apart by the published proof, on the CRS for which commitments reveal nothing. -/
example (sch sch' : Nat → Scheduler) :
    ¬ SameViews (N := 4) (proofsOn fun rng => Ex.quad7.commitAndProve sch [2] [3, 4] Ex.sim7 rng)
    (proofsOn fun rng => Ex.quad7.commitAndProve sch' [0] [1, 0] Ex.sim7 rng) := fun h =>
  absurd ((C64_quad_exact Ex.prime7 (by decide) (by decide) (by decide) (by decide) Ex.quad7 [2] [0] [3, 4] [1, 0] (by simp) (by simp) Ex.quad7_dims rfl rfl
    Ex.quad7_holds Ex.quad7_holds' _ _).mp h) (by unfold QuadEqu.leak; decide)

/-! ### Instances -/

namespace Ex

example := C64_ppe_formula (e := e7) (crs := crs7) rfl rfl ppe7 [2] [3, 4] _ _ ppe7_xopens ppe7_yopens (fun _ => seqSched) (1 : Nat) _ _ rfl
example := C64_msmeg1_formula (e := e7) (crs := crs7) rfl rfl msm1_7 [2] [3, 4] _ _ msm1_7_xopens msm1_7_yopens (fun _ => seqSched) (1 : Nat) _ _ rfl
example := C64_msmeg2_formula (e := e7) (crs := crs7) rfl rfl msm2_7 [2] [3, 4] _ _ msm2_7_xopens msm2_7_yopens (fun _ => seqSched) (1 : Nat) _ _ rfl
example := C64_quad_formula (e := e7) (crs := crs7) rfl rfl quad7 [2] [3, 4] _ _ quad7_xopens quad7_yopens (fun _ => seqSched) (1 : Nat) _ _ rfl

end Ex

end GS
