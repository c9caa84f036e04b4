import Verif.Spec.Replay
import Verif.Spec.Joint
import Verif.Lemmas.MismatchChance
import Verif.Props.Completeness
import Verif.Props.Replay
import Verif.Props.Example

/-!
# C112: proving about other values than those committed to

`prove` does not compare the values it is given with the commitments.
-/

set_option linter.unusedSectionVars false
set_option linter.unusedVariables false

open scoped BigOperators

namespace GS
variable {F G1 G2 GT : Type} [Field F] [AddCommGroup G1] [Module F G1] [AddCommGroup G2] [Module F G2]
  [AddCommGroup GT] [Module F GT] [DecidableEq GT] {e : G1 →ₗ[F] G2 →ₗ[F] GT} {crs : CRS G1 G2 GT}

/-- C112: for commitments to `x` and `y`, a proof computed for the values `x'` and `y'` is accepted exactly if the pairing product equation, evaluated
at the committed values, plus the trace of the differences gives the target. -/
theorem C112_ppe {ρ : Type} [Rng ρ F G1 G2] {u0 u1 : Com G1} {v0 v1 : Com G2} (hu : crs.u = [u0, u1]) (hv : crs.v = [v0, v1])
    (equ : PPE F G1 G2 GT) (x x' : List G1) (y y' : List G2) (xc : Commit F G1) (yc : Commit F G2)
    (hx : x ≠ []) (hy : y ≠ []) (hx' : x'.length = x.length)
    (hy' : y'.length = y.length) (hd : equ.Dims x.length y.length)
    (hxc : xc.OpensGroup crs.u x) (hyc : yc.OpensGroup crs.v y) (sch : Nat → Scheduler) (rng : ρ) :
    ∃ pf rng', equ.prove sch x' y' xc yc crs rng = .ok (pf, rng') ∧ ∀ sch', ∃ b, equ.verify e sch' ⟨xc, yc, [pf]⟩ crs = .ok b ∧
      (b = true ↔ ComT.linearMapPPE (equLhs (fun x y => e x y) equ.a_consts x equ.b_consts y equ.gamma) +
        defect e equ.gamma xc.coms (embG x) (embG x') yc.coms (embG y) (embG y') =
          ComT.linearMapPPE equ.target) := by
  obtain ⟨pf, rng', h1, -, -, -, h2⟩ := PPE.other e sch equ x x' y y' xc yc crs rng hx hy hx' hy' hd (by rw [hu]; rfl) (by rw [hv]; rfl) hxc hyc
  exact ⟨pf, rng', h1, fun s => h2 s ⟨xc, yc, [pf]⟩ rfl rfl rfl⟩

example (sch : Nat → Scheduler) : ∃ pf rng', Ex.ppe7.prove sch [3] [3, 5] Ex.ppe7_msg.xcoms Ex.ppe7_msg.ycoms Ex.crs7 (1 : Nat) = .ok (pf, rng') ∧
    ∀ sch', ∃ b, Ex.ppe7.verify Ex.e7 sch' ⟨Ex.ppe7_msg.xcoms, Ex.ppe7_msg.ycoms, [pf]⟩ Ex.crs7 = .ok b := by
  obtain ⟨pf, rng', h1, h2⟩ := C112_ppe (e := Ex.e7) (crs := Ex.crs7) rfl rfl Ex.ppe7 [2] [3] [3, 4] [3, 5] Ex.ppe7_msg.xcoms Ex.ppe7_msg.ycoms
    (by simp) (by simp) rfl rfl Ex.ppe7_dims ⟨_, _, _, rfl, [(1, 2)], rfl, rfl, by decide⟩ ⟨_, _, _, rfl, [(3, 4), (5, 6)], rfl, rfl, by decide⟩ sch (1 : Nat)
  exact ⟨pf, rng', h1, fun s => (h2 s).imp fun b h => h.1⟩

/-- C112: values that the bilinear part of the equation does not tell from the committed ones give the very same proof. -/
theorem C112_ppe_same {ρ : Type} [Rng ρ F G1 G2] {u0 u1 : Com G1} {v0 v1 : Com G2} (hu : crs.u = [u0, u1]) (hv : crs.v = [v0, v1])
    (equ : PPE F G1 G2 GT) (x x' : List G1) (y y' : List G2) (xc : Commit F G1) (yc : Commit F G2)
    (hx : x ≠ []) (hy : y ≠ []) (hx' : x'.length = x.length)
    (hy' : y'.length = y.length) (hd : equ.Dims x.length y.length)
    (hxc : xc.OpensGroup crs.u x) (hyc : yc.OpensGroup crs.v y) (hl : SameLeft equ.gamma x x')
    (hr : SameRight equ.gamma y y') (sch : Nat → Scheduler) (rng : ρ) :
    equ.prove sch x' y' xc yc crs rng = equ.prove sch x y xc yc crs rng := by
  have hm := List.length_pos_iff.mpr hx
  have hn := List.length_pos_iff.mpr hy
  obtain ⟨m, hxm⟩ : ∃ m, x.length = m := ⟨_, rfl⟩
  obtain ⟨n, hyn⟩ : ∃ n, y.length = n := ⟨_, rfl⟩
  rw [hxm] at hm hd hx'
  rw [hyn] at hn hd hy'
  obtain ⟨a, ha⟩ := exists_ofFn equ.a_consts hd.a
  obtain ⟨b, hb⟩ := exists_ofFn equ.b_consts hd.b
  obtain ⟨γ, hγ⟩ := rect_iff.mp (⟨hd.rows, hd.cols⟩ : Rect _ _ equ.gamma)
  obtain ⟨x, rfl⟩ := exists_ofFn x hxm
  obtain ⟨y, rfl⟩ := exists_ofFn y hyn
  obtain ⟨x', rfl⟩ := exists_ofFn x' hx'
  obtain ⟨y', rfl⟩ := exists_ofFn y' hy'
  rw [hγ, sameLeft_ofFn] at hl
  rw [hγ, sameRight_ofFn] at hr
  obtain ⟨_, _, _, -, R, hR, -⟩ := opensGroup_ofFn.mp hxc
  obtain ⟨_, _, _, -, S, hS, -⟩ := opensGroup_ofFn.mp hyc
  have key := fun x y => PPE.prove_closed (sch := sch) (rng := rng) hm hn ha hb hγ x y hR hS hu hv
    (T := ![![(d1 F G1 G2 rng).1, (d1 F G1 G2 (d1 F G1 G2 rng).2).1], ![(d1 F G1 G2 (d1 F G1 G2 (d1 F G1 G2 rng).2).2).1, (d1 F G1 G2 (d1 F G1 G2 (d1 F G1 G2 (d1 F G1 G2 rng).2).2).2).1]]) rfl rfl
  rw [key, key]
  have hpi : piVal (fun i => i2 (F := F) (b i)) (fun i => i2 (F := F) (y' i)) γ R S ![![(d1 F G1 G2 rng).1, (d1 F G1 G2 (d1 F G1 G2 rng).2).1], ![(d1 F G1 G2 (d1 F G1 G2 (d1 F G1 G2 rng).2).2).1, (d1 F G1 G2 (d1 F G1 G2 (d1 F G1 G2 (d1 F G1 G2 rng).2).2).2).1]] ![v0, v1] =
      piVal (fun i => i2 (F := F) (b i)) (fun i => i2 (F := F) (y i)) γ R S ![![(d1 F G1 G2 rng).1, (d1 F G1 G2 (d1 F G1 G2 rng).2).1], ![(d1 F G1 G2 (d1 F G1 G2 (d1 F G1 G2 rng).2).2).1, (d1 F G1 G2 (d1 F G1 G2 (d1 F G1 G2 (d1 F G1 G2 rng).2).2).2).1]] ![v0, v1] := by
    funext k
    rw [piVal_other _ (fun i => i2 (F := F) (y i)) (fun i => i2 (F := F) (y' i))]
    have : ∀ i, ∑ j, γ i j • ((fun i => i2 (F := F) (y i)) j - (fun i => i2 (F := F) (y' i)) j) = 0 := fun i => (emb_comb (fun j => γ i j) y y').trans (by rw [hr i]; rfl)
    simp only [this, smul_zero, Finset.sum_const_zero, sub_zero]
  have hth : thetaVal (fun i => i1 (F := F) (a i)) (fun i => i1 (F := F) (x' i)) γ S ![![(d1 F G1 G2 rng).1, (d1 F G1 G2 (d1 F G1 G2 rng).2).1], ![(d1 F G1 G2 (d1 F G1 G2 (d1 F G1 G2 rng).2).2).1, (d1 F G1 G2 (d1 F G1 G2 (d1 F G1 G2 (d1 F G1 G2 rng).2).2).2).1]] ![u0, u1] =
      thetaVal (fun i => i1 (F := F) (a i)) (fun i => i1 (F := F) (x i)) γ S ![![(d1 F G1 G2 rng).1, (d1 F G1 G2 (d1 F G1 G2 rng).2).1], ![(d1 F G1 G2 (d1 F G1 G2 (d1 F G1 G2 rng).2).2).1, (d1 F G1 G2 (d1 F G1 G2 (d1 F G1 G2 (d1 F G1 G2 rng).2).2).2).1]] ![u0, u1] := by
    funext k
    rw [thetaVal_other _ (fun i => i1 (F := F) (x i)) (fun i => i1 (F := F) (x' i))]
    have : ∀ j, ∑ i, γ i j • ((fun i => i1 (F := F) (x i)) i - (fun i => i1 (F := F) (x' i)) i) = 0 := fun j => (emb_comb (fun i => γ i j) x x').trans (by rw [hl j]; rfl)
    simp only [this, smul_zero, Finset.sum_const_zero, sub_zero]
  rw [hpi, hth]

example (sch : Nat → Scheduler) : Ex.ppe7.prove sch [2] [0, 2] Ex.ppe7_msg.xcoms Ex.ppe7_msg.ycoms Ex.crs7 (1 : Nat) =
    Ex.ppe7.prove sch [2] [3, 4] Ex.ppe7_msg.xcoms Ex.ppe7_msg.ycoms Ex.crs7 (1 : Nat) :=
  C112_ppe_same (crs := Ex.crs7) rfl rfl Ex.ppe7 [2] [2] [3, 4] [0, 2] Ex.ppe7_msg.xcoms Ex.ppe7_msg.ycoms
    (by simp) (by simp) rfl rfl Ex.ppe7_dims ⟨_, _, _, rfl, [(1, 2)], rfl, rfl, by decide⟩ ⟨_, _, _, rfl, [(3, 4), (5, 6)], rfl, rfl, by decide⟩ (fun _ => rfl) (by intro row h; rw [List.mem_singleton.mp h]; decide) sch 1

section
variable [Fintype F]

/-- C112: after committing to `x` and `y` at random, a proof computed for values that the bilinear part of the pairing product equation tells from the
committed ones is accepted with probability at most `1 / |F|`. -/
theorem C112_ppe_chance (he : PrimeGroups e) {u0 u1 : Com G1} {v0 v1 : Com G2} (hu : crs.u = [u0, u1]) (hv : crs.v = [v0, v1])
    (hu0 : u0 ≠ 0) (hv0 : v0 ≠ 0)
    (equ : PPE F G1 G2 GT) (x x' : List G1) (y y' : List G2)
    (hx : x ≠ []) (hy : y ≠ []) (hx' : x'.length = x.length)
    (hy' : y'.length = y.length) (hd : equ.Dims x.length y.length)
    (h : ¬ (SameLeft equ.gamma x x' ∧ SameRight equ.gamma y y')) (sch : Nat → Scheduler) (sch' : Scheduler) :
    chance (2 * x.length + 2 * y.length + 4) (fun rng : List F => equ.proveOther sch x x' y y' crs rng)
      (fun cp => equ.verify e sch' cp crs = .ok true) ≤ 1 / Fintype.card F := by
  classical
  have hm := List.length_pos_iff.mpr hx
  have hn := List.length_pos_iff.mpr hy
  have key := fun xc yc (rng : List F) ox oy => C112_ppe (e := e) hu hv equ x x' y y' xc yc hx hy hx' hy' hd ox oy sch rng
  obtain ⟨m, hxm⟩ : ∃ m, x.length = m := ⟨_, rfl⟩
  obtain ⟨n, hyn⟩ : ∃ n, y.length = n := ⟨_, rfl⟩
  rw [hxm] at hm hd hx' ⊢
  rw [hyn] at hn hd hy' ⊢
  obtain ⟨γ, hγ⟩ := rect_iff.mp (⟨hd.rows, hd.cols⟩ : Rect _ _ equ.gamma)
  obtain ⟨x, rfl⟩ := exists_ofFn x hxm
  obtain ⟨y, rfl⟩ := exists_ofFn y hyn
  obtain ⟨x', rfl⟩ := exists_ofFn x' hx'
  obtain ⟨y', rfl⟩ := exists_ofFn y' hy'
  rw [hγ, sameLeft_ofFn, sameRight_ofFn] at h
  refine chance_le_one (m := m) (n := n) (p := 2) (q := 2) (by ring) _ (fun r cp rest hr hP => ?_)
    (affine_card (ComT.pairL e) (fun j => ∑ i, γ i j • ((fun i => (⟨0, x i⟩ : Com G1)) i - (fun i => (⟨0, x' i⟩ : Com G1)) i))
      (fun i => ∑ j, γ i j • ((fun j => (⟨0, y j⟩ : Com G2)) j - (fun j => (⟨0, y' j⟩ : Com G2)) j)) ![u0, u1] ![v0, v1] 0 0 0 0
      (ComT.linearMapPPE equ.target - ComT.linearMapPPE (equLhs (fun x y => e x y) equ.a_consts (List.ofFn x) equ.b_consts (List.ofFn y) equ.gamma))
      (fun _ h => pairL_ne_zero he h hv0) (fun _ h => pairL_ne_zero he hu0 h) ?_)
  · have hdr := draws_tape' (F := F) (G1 := G1) (G2 := G2) (l := flat r) (n := 2 * m + 2 * n + 4) (by rw [flat_length]; omega) []
    rw [List.append_nil] at hdr
    obtain ⟨s2, h12, h3⟩ := draws_split (a := 2 * m + 2 * n) (by simp only [List.length_append, flatten_matOf_length]; omega) hdr
    obtain ⟨s1, h1, h2⟩ := draws_split (by simp only [flatten_matOf_length]; omega) h12
    have ox := (opensGroup_ofFn (c := ⟨List.ofFn (comX ![u0, u1] (fun i => (⟨0, x i⟩ : Com G1)) r), matOf r.1⟩) (x := x)).mpr ⟨u0, u1, [], hu, r.1, rfl, rfl⟩
    have oy := (opensGroup_ofFn (c := ⟨List.ofFn (comY ![v0, v1] (fun j => (⟨0, y j⟩ : Com G2)) r), matOf r.2.1⟩) (x := y)).mpr ⟨v0, v1, [], hv, r.2.1, rfl, rfl⟩
    obtain ⟨pf, s3, hp, hver⟩ := key _ _ s2 ox oy
    rw [PPE.proveOther, batchCommitG1_draws hm x hu h1, ok_bind] at hr
    dsimp only at hr
    rw [batchCommitG2_draws hn y hv h2, ok_bind] at hr
    dsimp only at hr
    rw [groupCom_sum, groupCom_sum] at hr
    erw [hp] at hr
    obtain ⟨rfl, -⟩ := Prod.mk.inj (Except.ok.inj hr)
    obtain ⟨b, hb, hb'⟩ := hver sch'
    have heq := hb'.mp (Except.ok.inj (hP.symm.trans hb)).symm
    have hD := defect_lhsOf e γ ![u0, u1] ![v0, v1] (fun i => (⟨0, x i⟩ : Com G1)) (fun i => (⟨0, x' i⟩ : Com G1)) (fun j => (⟨0, y j⟩ : Com G2)) (fun j => (⟨0, y' j⟩ : Com G2)) r
    rw [eq_sub_iff_add_eq, ← hD, add_comm, ← heq, hγ, embG_ofFn, embG_ofFn, embG_ofFn, embG_ofFn]
  · rintro ⟨h1, h2⟩
    refine h ⟨fun j => ?_, fun i => ?_⟩
    · have := congrFun h1 j
      dsimp only at this
      rw [emb_comb] at this
      exact congrArg Com.c1 this
    · have := congrFun h2 i
      dsimp only at this
      rw [emb_comb] at this
      exact congrArg Com.c1 this

/-- C112 for generated CRSs: a proof computed for values that the bilinear part of the pairing product equation tells from the committed ones is
accepted with probability at most `1 / |F|`. -/
theorem C112_ppe_generated (he : PrimeGroups e) (hg : GeneratedCrs e crs) (hnz : crs.NonzeroGens) (equ : PPE F G1 G2 GT)
    (x x' : List G1) (y y' : List G2)
    (hx : x ≠ []) (hy : y ≠ []) (hx' : x'.length = x.length)
    (hy' : y'.length = y.length) (hd : equ.Dims x.length y.length)
    (h : ¬ (SameLeft equ.gamma x x' ∧ SameRight equ.gamma y y')) (sch : Nat → Scheduler) (sch' : Scheduler) :
    chance (2 * x.length + 2 * y.length + 4) (fun rng : List F => equ.proveOther sch x x' y y' crs rng)
      (fun cp => equ.verify e sch' cp crs = .ok true) ≤ 1 / Fintype.card F := by
  obtain ⟨u0, u1, v0, v1, hu, hv, hu0, hv0, hu1, hv1⟩ := generated_keys hg hnz
  exact C112_ppe_chance he hu hv hu0 hv0 equ x x' y y' hx hy hx' hy' hd h sch sch'

example (sch : Nat → Scheduler) (sch' : Scheduler) :
    chance 10 (fun rng : List Ex.K => Ex.ppe7.proveOther sch [2] [3] [3, 4] [3, 4] Ex.crs7 rng)
      (fun cp => Ex.ppe7.verify Ex.e7 sch' cp Ex.crs7 = .ok true) ≤ 1 / Fintype.card Ex.K :=
  C112_ppe_generated Ex.prime7 Ex.crs7_generated Ex.crs7_nonzero Ex.ppe7 [2] [3] [3, 4] [3, 4] (by simp) (by simp) rfl rfl
    Ex.ppe7_dims (fun h => absurd (h.1 0) (by decide)) sch sch'

end

/-- C112: for commitments to `x` and `y`, a proof computed for the values `x'` and `y'` is accepted exactly if the multi-scalar equation in `G1`, evaluated
at the committed values, plus the trace of the differences gives the target. -/
theorem C112_msmeg1 {ρ : Type} [Rng ρ F G1 G2] {u0 u1 : Com G1} {v0 v1 : Com G2} (hu : crs.u = [u0, u1]) (hv : crs.v = [v0, v1])
    (equ : MSMEG1 F G1) (x x' : List G1) (y y' : List F) (xc : Commit F G1) (yc : Commit F G2)
    (hx : x ≠ []) (hy : y ≠ []) (hx' : x'.length = x.length)
    (hy' : y'.length = y.length) (hd : equ.Dims x.length y.length)
    (hxc : xc.OpensGroup crs.u x) (hyc : yc.OpensScalar crs.v crs.g2_gen y) (sch : Nat → Scheduler) (rng : ρ) :
    ∃ pf rng', equ.prove sch x' y' xc yc crs rng = .ok (pf, rng') ∧ ∀ sch', ∃ b, equ.verify e sch' ⟨xc, yc, [pf]⟩ crs = .ok b ∧
      (b = true ↔ ComT.pairing e ⟨0, equLhs (fun (x : G1) (y : F) => y • x) equ.a_consts x equ.b_consts y equ.gamma⟩ (v1 + ⟨0, crs.g2_gen⟩) +
        defect e equ.gamma xc.coms (embG x) (embG x') yc.coms (embS (v1 + ⟨0, crs.g2_gen⟩) y) (embS (v1 + ⟨0, crs.g2_gen⟩) y') =
          ComT.pairing e ⟨0, equ.target⟩ (v1 + ⟨0, crs.g2_gen⟩)) := by
  obtain ⟨pf, rng', h1, -, -, -, h2⟩ := MSMEG1.other e sch equ x x' y y' xc yc crs rng hx hy hx' hy' hd (by rw [hu]; rfl) hv hxc hyc
  exact ⟨pf, rng', h1, fun s => h2 s ⟨xc, yc, [pf]⟩ rfl rfl rfl⟩

example (sch : Nat → Scheduler) : ∃ pf rng', Ex.msm1_7.prove sch [3] [3, 5] Ex.msm1_7_msg.xcoms Ex.msm1_7_msg.ycoms Ex.crs7 (1 : Nat) = .ok (pf, rng') ∧
    ∀ sch', ∃ b, Ex.msm1_7.verify Ex.e7 sch' ⟨Ex.msm1_7_msg.xcoms, Ex.msm1_7_msg.ycoms, [pf]⟩ Ex.crs7 = .ok b := by
  obtain ⟨pf, rng', h1, h2⟩ := C112_msmeg1 (e := Ex.e7) (crs := Ex.crs7) rfl rfl Ex.msm1_7 [2] [3] [3, 4] [3, 5] Ex.msm1_7_msg.xcoms Ex.msm1_7_msg.ycoms
    (by simp) (by simp) rfl rfl Ex.msm1_7_dims ⟨_, _, _, rfl, [(1, 2)], rfl, rfl, by decide⟩ ⟨_, _, _, rfl, [3, 4], rfl, rfl, by decide⟩ sch (1 : Nat)
  exact ⟨pf, rng', h1, fun s => (h2 s).imp fun b h => h.1⟩

/-- C112: values that the bilinear part of the equation does not tell from the committed ones give the very same proof. -/
theorem C112_msmeg1_same {ρ : Type} [Rng ρ F G1 G2] {u0 u1 : Com G1} {v0 v1 : Com G2} (hu : crs.u = [u0, u1]) (hv : crs.v = [v0, v1])
    (equ : MSMEG1 F G1) (x x' : List G1) (y y' : List F) (xc : Commit F G1) (yc : Commit F G2)
    (hx : x ≠ []) (hy : y ≠ []) (hx' : x'.length = x.length)
    (hy' : y'.length = y.length) (hd : equ.Dims x.length y.length)
    (hxc : xc.OpensGroup crs.u x) (hyc : yc.OpensScalar crs.v crs.g2_gen y) (hl : SameLeft equ.gamma x x')
    (hr : SameRight equ.gamma y y') (sch : Nat → Scheduler) (rng : ρ) :
    equ.prove sch x' y' xc yc crs rng = equ.prove sch x y xc yc crs rng := by
  have hm := List.length_pos_iff.mpr hx
  have hn := List.length_pos_iff.mpr hy
  obtain ⟨m, hxm⟩ : ∃ m, x.length = m := ⟨_, rfl⟩
  obtain ⟨n, hyn⟩ : ∃ n, y.length = n := ⟨_, rfl⟩
  rw [hxm] at hm hd hx'
  rw [hyn] at hn hd hy'
  obtain ⟨a, ha⟩ := exists_ofFn equ.a_consts hd.a
  obtain ⟨b, hb⟩ := exists_ofFn equ.b_consts hd.b
  obtain ⟨γ, hγ⟩ := rect_iff.mp (⟨hd.rows, hd.cols⟩ : Rect _ _ equ.gamma)
  obtain ⟨x, rfl⟩ := exists_ofFn x hxm
  obtain ⟨y, rfl⟩ := exists_ofFn y hyn
  obtain ⟨x', rfl⟩ := exists_ofFn x' hx'
  obtain ⟨y', rfl⟩ := exists_ofFn y' hy'
  rw [hγ, sameLeft_ofFn] at hl
  rw [hγ, sameRight_ofFn] at hr
  obtain ⟨_, _, _, -, R, hR, -⟩ := opensGroup_ofFn.mp hxc
  obtain ⟨_, _, _, -, S, hS, -⟩ := opensScalar_ofFn.mp hyc
  have key := fun x y => MSMEG1.prove_closed (sch := sch) (rng := rng) hm hn ha hb hγ x y hR hS hu hv
    (T := ![![(d1 F G1 G2 rng).1, (d1 F G1 G2 (d1 F G1 G2 rng).2).1]]) rfl rfl
  rw [key, key]
  have hpi : piVal (fun i => b i • (v1 + Com2.linearMap crs.g2_gen)) (fun i => y' i • (v1 + Com2.linearMap crs.g2_gen)) γ R S ![![(d1 F G1 G2 rng).1, (d1 F G1 G2 (d1 F G1 G2 rng).2).1]] ![v0] =
      piVal (fun i => b i • (v1 + Com2.linearMap crs.g2_gen)) (fun i => y i • (v1 + Com2.linearMap crs.g2_gen)) γ R S ![![(d1 F G1 G2 rng).1, (d1 F G1 G2 (d1 F G1 G2 rng).2).1]] ![v0] := by
    funext k
    rw [piVal_other _ (fun i => y i • (v1 + Com2.linearMap crs.g2_gen)) (fun i => y' i • (v1 + Com2.linearMap crs.g2_gen))]
    have : ∀ i, ∑ j, γ i j • ((fun i => y i • (v1 + Com2.linearMap crs.g2_gen)) j - (fun i => y' i • (v1 + Com2.linearMap crs.g2_gen)) j) = 0 := fun i => (smul_comb _ (fun j => γ i j) y y').trans (by rw [hr i, zero_smul])
    simp only [this, smul_zero, Finset.sum_const_zero, sub_zero]
  have hth : thetaVal (fun i => i1 (F := F) (a i)) (fun i => i1 (F := F) (x' i)) γ S ![![(d1 F G1 G2 rng).1, (d1 F G1 G2 (d1 F G1 G2 rng).2).1]] ![u0, u1] =
      thetaVal (fun i => i1 (F := F) (a i)) (fun i => i1 (F := F) (x i)) γ S ![![(d1 F G1 G2 rng).1, (d1 F G1 G2 (d1 F G1 G2 rng).2).1]] ![u0, u1] := by
    funext k
    rw [thetaVal_other _ (fun i => i1 (F := F) (x i)) (fun i => i1 (F := F) (x' i))]
    have : ∀ j, ∑ i, γ i j • ((fun i => i1 (F := F) (x i)) i - (fun i => i1 (F := F) (x' i)) i) = 0 := fun j => (emb_comb (fun i => γ i j) x x').trans (by rw [hl j]; rfl)
    simp only [this, smul_zero, Finset.sum_const_zero, sub_zero]
  rw [hpi, hth]

example (sch : Nat → Scheduler) : Ex.msm1_7.prove sch [2] [0, 2] Ex.msm1_7_msg.xcoms Ex.msm1_7_msg.ycoms Ex.crs7 (1 : Nat) =
    Ex.msm1_7.prove sch [2] [3, 4] Ex.msm1_7_msg.xcoms Ex.msm1_7_msg.ycoms Ex.crs7 (1 : Nat) :=
  C112_msmeg1_same (crs := Ex.crs7) rfl rfl Ex.msm1_7 [2] [2] [3, 4] [0, 2] Ex.msm1_7_msg.xcoms Ex.msm1_7_msg.ycoms
    (by simp) (by simp) rfl rfl Ex.msm1_7_dims ⟨_, _, _, rfl, [(1, 2)], rfl, rfl, by decide⟩ ⟨_, _, _, rfl, [3, 4], rfl, rfl, by decide⟩ (fun _ => rfl) (by intro row h; rw [List.mem_singleton.mp h]; decide) sch 1

section
variable [Fintype F]

/-- C112: after committing to `x` and `y` at random, a proof computed for values that the bilinear part of the multi-scalar equation in `G1` tells from the
committed ones is accepted with probability at most `1 / |F|`. -/
theorem C112_msmeg1_chance (he : PrimeGroups e) {u0 u1 : Com G1} {v0 v1 : Com G2} (hu : crs.u = [u0, u1]) (hv : crs.v = [v0, v1])
    (hu0 : u0 ≠ 0) (hv0 : v0 ≠ 0) (hv1 : v1 + ⟨0, crs.g2_gen⟩ ≠ 0)
    (equ : MSMEG1 F G1) (x x' : List G1) (y y' : List F)
    (hx : x ≠ []) (hy : y ≠ []) (hx' : x'.length = x.length)
    (hy' : y'.length = y.length) (hd : equ.Dims x.length y.length)
    (h : ¬ (SameLeft equ.gamma x x' ∧ SameRight equ.gamma y y')) (sch : Nat → Scheduler) (sch' : Scheduler) :
    chance (2 * x.length + y.length + 2) (fun rng : List F => equ.proveOther sch x x' y y' crs rng)
      (fun cp => equ.verify e sch' cp crs = .ok true) ≤ 1 / Fintype.card F := by
  classical
  have hm := List.length_pos_iff.mpr hx
  have hn := List.length_pos_iff.mpr hy
  have key := fun xc yc (rng : List F) ox oy => C112_msmeg1 (e := e) hu hv equ x x' y y' xc yc hx hy hx' hy' hd ox oy sch rng
  obtain ⟨m, hxm⟩ : ∃ m, x.length = m := ⟨_, rfl⟩
  obtain ⟨n, hyn⟩ : ∃ n, y.length = n := ⟨_, rfl⟩
  rw [hxm] at hm hd hx' ⊢
  rw [hyn] at hn hd hy' ⊢
  obtain ⟨γ, hγ⟩ := rect_iff.mp (⟨hd.rows, hd.cols⟩ : Rect _ _ equ.gamma)
  obtain ⟨x, rfl⟩ := exists_ofFn x hxm
  obtain ⟨y, rfl⟩ := exists_ofFn y hyn
  obtain ⟨x', rfl⟩ := exists_ofFn x' hx'
  obtain ⟨y', rfl⟩ := exists_ofFn y' hy'
  rw [hγ, sameLeft_ofFn, sameRight_ofFn] at h
  refine chance_le_one (m := m) (n := n) (p := 2) (q := 1) (by ring) _ (fun r cp rest hr hP => ?_)
    (affine_card (ComT.pairL e) (fun j => ∑ i, γ i j • ((fun i => (⟨0, x i⟩ : Com G1)) i - (fun i => (⟨0, x' i⟩ : Com G1)) i))
      (fun i => ∑ j, γ i j • ((fun j => (y j • (v1 + ⟨0, crs.g2_gen⟩) : Com G2)) j - (fun j => (y' j • (v1 + ⟨0, crs.g2_gen⟩) : Com G2)) j)) ![u0, u1] ![v0] 0 0 0 0
      (ComT.pairing e ⟨0, equ.target⟩ (v1 + ⟨0, crs.g2_gen⟩) - ComT.pairing e ⟨0, equLhs (fun (x : G1) (y : F) => y • x) equ.a_consts (List.ofFn x) equ.b_consts (List.ofFn y) equ.gamma⟩ (v1 + ⟨0, crs.g2_gen⟩))
      (fun _ h => pairL_ne_zero he h hv0) (fun _ h => pairL_ne_zero he hu0 h) ?_)
  · have hdr := draws_tape' (F := F) (G1 := G1) (G2 := G2) (l := flat r) (n := 2 * m + n + 2) (by rw [flat_length]; omega) []
    rw [List.append_nil] at hdr
    obtain ⟨s2, h12, h3⟩ := draws_split (a := 2 * m + n) (by simp only [List.length_append, flatten_matOf_length]; omega) hdr
    obtain ⟨s1, h1, h2⟩ := draws_split (by simp only [flatten_matOf_length]; omega) h12
    have ox := (opensGroup_ofFn (c := ⟨List.ofFn (comX ![u0, u1] (fun i => (⟨0, x i⟩ : Com G1)) r), matOf r.1⟩) (x := x)).mpr ⟨u0, u1, [], hu, r.1, rfl, rfl⟩
    have oy := (opensScalar_ofFn (c := ⟨List.ofFn (comY ![v0] (fun j => (y j • (v1 + ⟨0, crs.g2_gen⟩) : Com G2)) r), matOf r.2.1⟩) (g := crs.g2_gen) (x := y)).mpr ⟨v0, v1, [], hv, r.2.1, rfl, rfl⟩
    obtain ⟨pf, s3, hp, hver⟩ := key _ _ s2 ox oy
    rw [MSMEG1.proveOther, batchCommitG1_draws hm x hu h1, ok_bind] at hr
    dsimp only at hr
    rw [batchCommitB2_draws hn y hv h2, ok_bind] at hr
    dsimp only at hr
    rw [groupCom_sum, scalarCom_sum] at hr
    erw [hp] at hr
    obtain ⟨rfl, -⟩ := Prod.mk.inj (Except.ok.inj hr)
    obtain ⟨b, hb, hb'⟩ := hver sch'
    have heq := hb'.mp (Except.ok.inj (hP.symm.trans hb)).symm
    have hD := defect_lhsOf e γ ![u0, u1] ![v0] (fun i => (⟨0, x i⟩ : Com G1)) (fun i => (⟨0, x' i⟩ : Com G1)) (fun j => (y j • (v1 + ⟨0, crs.g2_gen⟩) : Com G2)) (fun j => (y' j • (v1 + ⟨0, crs.g2_gen⟩) : Com G2)) r
    rw [eq_sub_iff_add_eq, ← hD, add_comm, ← heq, hγ, embG_ofFn, embG_ofFn, embS_ofFn, embS_ofFn]
  · rintro ⟨h1, h2⟩
    refine h ⟨fun j => ?_, fun i => ?_⟩
    · have := congrFun h1 j
      dsimp only at this
      rw [emb_comb] at this
      exact congrArg Com.c1 this
    · have := congrFun h2 i
      dsimp only at this
      rw [smul_comb] at this
      exact (smul_eq_zero.mp this).resolve_right hv1

/-- C112 for generated CRSs: a proof computed for values that the bilinear part of the multi-scalar equation in `G1` tells from the committed ones is
accepted with probability at most `1 / |F|`. -/
theorem C112_msmeg1_generated (he : PrimeGroups e) (hg : GeneratedCrs e crs) (hnz : crs.NonzeroGens) (equ : MSMEG1 F G1)
    (x x' : List G1) (y y' : List F)
    (hx : x ≠ []) (hy : y ≠ []) (hx' : x'.length = x.length)
    (hy' : y'.length = y.length) (hd : equ.Dims x.length y.length)
    (h : ¬ (SameLeft equ.gamma x x' ∧ SameRight equ.gamma y y')) (sch : Nat → Scheduler) (sch' : Scheduler) :
    chance (2 * x.length + y.length + 2) (fun rng : List F => equ.proveOther sch x x' y y' crs rng)
      (fun cp => equ.verify e sch' cp crs = .ok true) ≤ 1 / Fintype.card F := by
  obtain ⟨u0, u1, v0, v1, hu, hv, hu0, hv0, hu1, hv1⟩ := generated_keys hg hnz
  exact C112_msmeg1_chance he hu hv hu0 hv0 hv1 equ x x' y y' hx hy hx' hy' hd h sch sch'

example (sch : Nat → Scheduler) (sch' : Scheduler) :
    chance 6 (fun rng : List Ex.K => Ex.msm1_7.proveOther sch [2] [3] [3, 4] [3, 4] Ex.crs7 rng)
      (fun cp => Ex.msm1_7.verify Ex.e7 sch' cp Ex.crs7 = .ok true) ≤ 1 / Fintype.card Ex.K :=
  C112_msmeg1_generated Ex.prime7 Ex.crs7_generated Ex.crs7_nonzero Ex.msm1_7 [2] [3] [3, 4] [3, 4] (by simp) (by simp) rfl rfl
    Ex.msm1_7_dims (fun h => absurd (h.1 0) (by decide)) sch sch'

end

/-- C112: for commitments to `x` and `y`, a proof computed for the values `x'` and `y'` is accepted exactly if the multi-scalar equation in `G2`, evaluated
at the committed values, plus the trace of the differences gives the target. -/
theorem C112_msmeg2 {ρ : Type} [Rng ρ F G1 G2] {u0 u1 : Com G1} {v0 v1 : Com G2} (hu : crs.u = [u0, u1]) (hv : crs.v = [v0, v1])
    (equ : MSMEG2 F G2) (x x' : List F) (y y' : List G2) (xc : Commit F G1) (yc : Commit F G2)
    (hx : x ≠ []) (hy : y ≠ []) (hx' : x'.length = x.length)
    (hy' : y'.length = y.length) (hd : equ.Dims x.length y.length)
    (hxc : xc.OpensScalar crs.u crs.g1_gen x) (hyc : yc.OpensGroup crs.v y) (sch : Nat → Scheduler) (rng : ρ) :
    ∃ pf rng', equ.prove sch x' y' xc yc crs rng = .ok (pf, rng') ∧ ∀ sch', ∃ b, equ.verify e sch' ⟨xc, yc, [pf]⟩ crs = .ok b ∧
      (b = true ↔ ComT.pairing e (u1 + ⟨0, crs.g1_gen⟩) ⟨0, equLhs (fun (x : F) (y : G2) => x • y) equ.a_consts x equ.b_consts y equ.gamma⟩ +
        defect e equ.gamma xc.coms (embS (u1 + ⟨0, crs.g1_gen⟩) x) (embS (u1 + ⟨0, crs.g1_gen⟩) x') yc.coms (embG y) (embG y') =
          ComT.pairing e (u1 + ⟨0, crs.g1_gen⟩) ⟨0, equ.target⟩) := by
  obtain ⟨pf, rng', h1, -, -, -, h2⟩ := MSMEG2.other e sch equ x x' y y' xc yc crs rng hx hy hx' hy' hd hu (by rw [hv]; rfl) hxc hyc
  exact ⟨pf, rng', h1, fun s => h2 s ⟨xc, yc, [pf]⟩ rfl rfl rfl⟩

example (sch : Nat → Scheduler) : ∃ pf rng', Ex.msm2_7.prove sch [3] [3, 5] Ex.msm2_7_msg.xcoms Ex.msm2_7_msg.ycoms Ex.crs7 (1 : Nat) = .ok (pf, rng') ∧
    ∀ sch', ∃ b, Ex.msm2_7.verify Ex.e7 sch' ⟨Ex.msm2_7_msg.xcoms, Ex.msm2_7_msg.ycoms, [pf]⟩ Ex.crs7 = .ok b := by
  obtain ⟨pf, rng', h1, h2⟩ := C112_msmeg2 (e := Ex.e7) (crs := Ex.crs7) rfl rfl Ex.msm2_7 [2] [3] [3, 4] [3, 5] Ex.msm2_7_msg.xcoms Ex.msm2_7_msg.ycoms
    (by simp) (by simp) rfl rfl Ex.msm2_7_dims ⟨_, _, _, rfl, [1], rfl, rfl, by decide⟩ ⟨_, _, _, rfl, [(2, 3), (4, 5)], rfl, rfl, by decide⟩ sch (1 : Nat)
  exact ⟨pf, rng', h1, fun s => (h2 s).imp fun b h => h.1⟩

/-- C112: values that the bilinear part of the equation does not tell from the committed ones give the very same proof. -/
theorem C112_msmeg2_same {ρ : Type} [Rng ρ F G1 G2] {u0 u1 : Com G1} {v0 v1 : Com G2} (hu : crs.u = [u0, u1]) (hv : crs.v = [v0, v1])
    (equ : MSMEG2 F G2) (x x' : List F) (y y' : List G2) (xc : Commit F G1) (yc : Commit F G2)
    (hx : x ≠ []) (hy : y ≠ []) (hx' : x'.length = x.length)
    (hy' : y'.length = y.length) (hd : equ.Dims x.length y.length)
    (hxc : xc.OpensScalar crs.u crs.g1_gen x) (hyc : yc.OpensGroup crs.v y) (hl : SameLeft equ.gamma x x')
    (hr : SameRight equ.gamma y y') (sch : Nat → Scheduler) (rng : ρ) :
    equ.prove sch x' y' xc yc crs rng = equ.prove sch x y xc yc crs rng := by
  have hm := List.length_pos_iff.mpr hx
  have hn := List.length_pos_iff.mpr hy
  obtain ⟨m, hxm⟩ : ∃ m, x.length = m := ⟨_, rfl⟩
  obtain ⟨n, hyn⟩ : ∃ n, y.length = n := ⟨_, rfl⟩
  rw [hxm] at hm hd hx'
  rw [hyn] at hn hd hy'
  obtain ⟨a, ha⟩ := exists_ofFn equ.a_consts hd.a
  obtain ⟨b, hb⟩ := exists_ofFn equ.b_consts hd.b
  obtain ⟨γ, hγ⟩ := rect_iff.mp (⟨hd.rows, hd.cols⟩ : Rect _ _ equ.gamma)
  obtain ⟨x, rfl⟩ := exists_ofFn x hxm
  obtain ⟨y, rfl⟩ := exists_ofFn y hyn
  obtain ⟨x', rfl⟩ := exists_ofFn x' hx'
  obtain ⟨y', rfl⟩ := exists_ofFn y' hy'
  rw [hγ, sameLeft_ofFn] at hl
  rw [hγ, sameRight_ofFn] at hr
  obtain ⟨_, _, _, -, R, hR, -⟩ := opensScalar_ofFn.mp hxc
  obtain ⟨_, _, _, -, S, hS, -⟩ := opensGroup_ofFn.mp hyc
  have key := fun x y => MSMEG2.prove_closed (sch := sch) (rng := rng) hm hn ha hb hγ x y hR hS hu hv
    (T := ![![(d1 F G1 G2 rng).1], ![(d1 F G1 G2 (d1 F G1 G2 rng).2).1]]) rfl rfl
  rw [key, key]
  have hpi : piVal (fun i => i2 (F := F) (b i)) (fun i => i2 (F := F) (y' i)) γ R S ![![(d1 F G1 G2 rng).1], ![(d1 F G1 G2 (d1 F G1 G2 rng).2).1]] ![v0, v1] =
      piVal (fun i => i2 (F := F) (b i)) (fun i => i2 (F := F) (y i)) γ R S ![![(d1 F G1 G2 rng).1], ![(d1 F G1 G2 (d1 F G1 G2 rng).2).1]] ![v0, v1] := by
    funext k
    rw [piVal_other _ (fun i => i2 (F := F) (y i)) (fun i => i2 (F := F) (y' i))]
    have : ∀ i, ∑ j, γ i j • ((fun i => i2 (F := F) (y i)) j - (fun i => i2 (F := F) (y' i)) j) = 0 := fun i => (emb_comb (fun j => γ i j) y y').trans (by rw [hr i]; rfl)
    simp only [this, smul_zero, Finset.sum_const_zero, sub_zero]
  have hth : thetaVal (fun i => a i • (u1 + Com1.linearMap crs.g1_gen)) (fun i => x' i • (u1 + Com1.linearMap crs.g1_gen)) γ S ![![(d1 F G1 G2 rng).1], ![(d1 F G1 G2 (d1 F G1 G2 rng).2).1]] ![u0] =
      thetaVal (fun i => a i • (u1 + Com1.linearMap crs.g1_gen)) (fun i => x i • (u1 + Com1.linearMap crs.g1_gen)) γ S ![![(d1 F G1 G2 rng).1], ![(d1 F G1 G2 (d1 F G1 G2 rng).2).1]] ![u0] := by
    funext k
    rw [thetaVal_other _ (fun i => x i • (u1 + Com1.linearMap crs.g1_gen)) (fun i => x' i • (u1 + Com1.linearMap crs.g1_gen))]
    have : ∀ j, ∑ i, γ i j • ((fun i => x i • (u1 + Com1.linearMap crs.g1_gen)) i - (fun i => x' i • (u1 + Com1.linearMap crs.g1_gen)) i) = 0 := fun j => (smul_comb _ (fun i => γ i j) x x').trans (by rw [hl j, zero_smul])
    simp only [this, smul_zero, Finset.sum_const_zero, sub_zero]
  rw [hpi, hth]

example (sch : Nat → Scheduler) : Ex.msm2_7.prove sch [2] [0, 2] Ex.msm2_7_msg.xcoms Ex.msm2_7_msg.ycoms Ex.crs7 (1 : Nat) =
    Ex.msm2_7.prove sch [2] [3, 4] Ex.msm2_7_msg.xcoms Ex.msm2_7_msg.ycoms Ex.crs7 (1 : Nat) :=
  C112_msmeg2_same (crs := Ex.crs7) rfl rfl Ex.msm2_7 [2] [2] [3, 4] [0, 2] Ex.msm2_7_msg.xcoms Ex.msm2_7_msg.ycoms
    (by simp) (by simp) rfl rfl Ex.msm2_7_dims ⟨_, _, _, rfl, [1], rfl, rfl, by decide⟩ ⟨_, _, _, rfl, [(2, 3), (4, 5)], rfl, rfl, by decide⟩ (fun _ => rfl) (by intro row h; rw [List.mem_singleton.mp h]; decide) sch 1

section
variable [Fintype F]

/-- C112: after committing to `x` and `y` at random, a proof computed for values that the bilinear part of the multi-scalar equation in `G2` tells from the
committed ones is accepted with probability at most `1 / |F|`. -/
theorem C112_msmeg2_chance (he : PrimeGroups e) {u0 u1 : Com G1} {v0 v1 : Com G2} (hu : crs.u = [u0, u1]) (hv : crs.v = [v0, v1])
    (hu0 : u0 ≠ 0) (hv0 : v0 ≠ 0) (hu1 : u1 + ⟨0, crs.g1_gen⟩ ≠ 0)
    (equ : MSMEG2 F G2) (x x' : List F) (y y' : List G2)
    (hx : x ≠ []) (hy : y ≠ []) (hx' : x'.length = x.length)
    (hy' : y'.length = y.length) (hd : equ.Dims x.length y.length)
    (h : ¬ (SameLeft equ.gamma x x' ∧ SameRight equ.gamma y y')) (sch : Nat → Scheduler) (sch' : Scheduler) :
    chance (x.length + 2 * y.length + 2) (fun rng : List F => equ.proveOther sch x x' y y' crs rng)
      (fun cp => equ.verify e sch' cp crs = .ok true) ≤ 1 / Fintype.card F := by
  classical
  have hm := List.length_pos_iff.mpr hx
  have hn := List.length_pos_iff.mpr hy
  have key := fun xc yc (rng : List F) ox oy => C112_msmeg2 (e := e) hu hv equ x x' y y' xc yc hx hy hx' hy' hd ox oy sch rng
  obtain ⟨m, hxm⟩ : ∃ m, x.length = m := ⟨_, rfl⟩
  obtain ⟨n, hyn⟩ : ∃ n, y.length = n := ⟨_, rfl⟩
  rw [hxm] at hm hd hx' ⊢
  rw [hyn] at hn hd hy' ⊢
  obtain ⟨γ, hγ⟩ := rect_iff.mp (⟨hd.rows, hd.cols⟩ : Rect _ _ equ.gamma)
  obtain ⟨x, rfl⟩ := exists_ofFn x hxm
  obtain ⟨y, rfl⟩ := exists_ofFn y hyn
  obtain ⟨x', rfl⟩ := exists_ofFn x' hx'
  obtain ⟨y', rfl⟩ := exists_ofFn y' hy'
  rw [hγ, sameLeft_ofFn, sameRight_ofFn] at h
  refine chance_le_one (m := m) (n := n) (p := 1) (q := 2) (by ring) _ (fun r cp rest hr hP => ?_)
    (affine_card (ComT.pairL e) (fun j => ∑ i, γ i j • ((fun i => (x i • (u1 + ⟨0, crs.g1_gen⟩) : Com G1)) i - (fun i => (x' i • (u1 + ⟨0, crs.g1_gen⟩) : Com G1)) i))
      (fun i => ∑ j, γ i j • ((fun j => (⟨0, y j⟩ : Com G2)) j - (fun j => (⟨0, y' j⟩ : Com G2)) j)) ![u0] ![v0, v1] 0 0 0 0
      (ComT.pairing e (u1 + ⟨0, crs.g1_gen⟩) ⟨0, equ.target⟩ - ComT.pairing e (u1 + ⟨0, crs.g1_gen⟩) ⟨0, equLhs (fun (x : F) (y : G2) => x • y) equ.a_consts (List.ofFn x) equ.b_consts (List.ofFn y) equ.gamma⟩)
      (fun _ h => pairL_ne_zero he h hv0) (fun _ h => pairL_ne_zero he hu0 h) ?_)
  · have hdr := draws_tape' (F := F) (G1 := G1) (G2 := G2) (l := flat r) (n := m + 2 * n + 2) (by rw [flat_length]; omega) []
    rw [List.append_nil] at hdr
    obtain ⟨s2, h12, h3⟩ := draws_split (a := m + 2 * n) (by simp only [List.length_append, flatten_matOf_length]; omega) hdr
    obtain ⟨s1, h1, h2⟩ := draws_split (by simp only [flatten_matOf_length]; omega) h12
    have ox := (opensScalar_ofFn (c := ⟨List.ofFn (comX ![u0] (fun i => (x i • (u1 + ⟨0, crs.g1_gen⟩) : Com G1)) r), matOf r.1⟩) (g := crs.g1_gen) (x := x)).mpr ⟨u0, u1, [], hu, r.1, rfl, rfl⟩
    have oy := (opensGroup_ofFn (c := ⟨List.ofFn (comY ![v0, v1] (fun j => (⟨0, y j⟩ : Com G2)) r), matOf r.2.1⟩) (x := y)).mpr ⟨v0, v1, [], hv, r.2.1, rfl, rfl⟩
    obtain ⟨pf, s3, hp, hver⟩ := key _ _ s2 ox oy
    rw [MSMEG2.proveOther, batchCommitB1_draws hm x hu h1, ok_bind] at hr
    dsimp only at hr
    rw [batchCommitG2_draws hn y hv h2, ok_bind] at hr
    dsimp only at hr
    rw [scalarCom_sum, groupCom_sum] at hr
    erw [hp] at hr
    obtain ⟨rfl, -⟩ := Prod.mk.inj (Except.ok.inj hr)
    obtain ⟨b, hb, hb'⟩ := hver sch'
    have heq := hb'.mp (Except.ok.inj (hP.symm.trans hb)).symm
    have hD := defect_lhsOf e γ ![u0] ![v0, v1] (fun i => (x i • (u1 + ⟨0, crs.g1_gen⟩) : Com G1)) (fun i => (x' i • (u1 + ⟨0, crs.g1_gen⟩) : Com G1)) (fun j => (⟨0, y j⟩ : Com G2)) (fun j => (⟨0, y' j⟩ : Com G2)) r
    rw [eq_sub_iff_add_eq, ← hD, add_comm, ← heq, hγ, embS_ofFn, embS_ofFn, embG_ofFn, embG_ofFn]
  · rintro ⟨h1, h2⟩
    refine h ⟨fun j => ?_, fun i => ?_⟩
    · have := congrFun h1 j
      dsimp only at this
      rw [smul_comb] at this
      exact (smul_eq_zero.mp this).resolve_right hu1
    · have := congrFun h2 i
      dsimp only at this
      rw [emb_comb] at this
      exact congrArg Com.c1 this

/-- C112 for generated CRSs: a proof computed for values that the bilinear part of the multi-scalar equation in `G2` tells from the committed ones is
accepted with probability at most `1 / |F|`. -/
theorem C112_msmeg2_generated (he : PrimeGroups e) (hg : GeneratedCrs e crs) (hnz : crs.NonzeroGens) (equ : MSMEG2 F G2)
    (x x' : List F) (y y' : List G2)
    (hx : x ≠ []) (hy : y ≠ []) (hx' : x'.length = x.length)
    (hy' : y'.length = y.length) (hd : equ.Dims x.length y.length)
    (h : ¬ (SameLeft equ.gamma x x' ∧ SameRight equ.gamma y y')) (sch : Nat → Scheduler) (sch' : Scheduler) :
    chance (x.length + 2 * y.length + 2) (fun rng : List F => equ.proveOther sch x x' y y' crs rng)
      (fun cp => equ.verify e sch' cp crs = .ok true) ≤ 1 / Fintype.card F := by
  obtain ⟨u0, u1, v0, v1, hu, hv, hu0, hv0, hu1, hv1⟩ := generated_keys hg hnz
  exact C112_msmeg2_chance he hu hv hu0 hv0 hu1 equ x x' y y' hx hy hx' hy' hd h sch sch'

example (sch : Nat → Scheduler) (sch' : Scheduler) :
    chance 7 (fun rng : List Ex.K => Ex.msm2_7.proveOther sch [2] [3] [3, 4] [3, 4] Ex.crs7 rng)
      (fun cp => Ex.msm2_7.verify Ex.e7 sch' cp Ex.crs7 = .ok true) ≤ 1 / Fintype.card Ex.K :=
  C112_msmeg2_generated Ex.prime7 Ex.crs7_generated Ex.crs7_nonzero Ex.msm2_7 [2] [3] [3, 4] [3, 4] (by simp) (by simp) rfl rfl
    Ex.msm2_7_dims (fun h => absurd (h.1 0) (by decide)) sch sch'

end

/-- C112: for commitments to `x` and `y`, a proof computed for the values `x'` and `y'` is accepted exactly if the quadratic equation, evaluated
at the committed values, plus the trace of the differences gives the target. -/
theorem C112_quad {ρ : Type} [Rng ρ F G1 G2] {u0 u1 : Com G1} {v0 v1 : Com G2} (hu : crs.u = [u0, u1]) (hv : crs.v = [v0, v1])
    (equ : QuadEqu F) (x x' : List F) (y y' : List F) (xc : Commit F G1) (yc : Commit F G2)
    (hx : x ≠ []) (hy : y ≠ []) (hx' : x'.length = x.length)
    (hy' : y'.length = y.length) (hd : equ.Dims x.length y.length)
    (hxc : xc.OpensScalar crs.u crs.g1_gen x) (hyc : yc.OpensScalar crs.v crs.g2_gen y) (sch : Nat → Scheduler) (rng : ρ) :
    ∃ pf rng', equ.prove sch x' y' xc yc crs rng = .ok (pf, rng') ∧ ∀ sch', ∃ b, equ.verify e sch' ⟨xc, yc, [pf]⟩ crs = .ok b ∧
      (b = true ↔ equLhs (fun x y : F => x * y) equ.a_consts x equ.b_consts y equ.gamma • ComT.pairing e (u1 + ⟨0, crs.g1_gen⟩) (v1 + ⟨0, crs.g2_gen⟩) +
        defect e equ.gamma xc.coms (embS (u1 + ⟨0, crs.g1_gen⟩) x) (embS (u1 + ⟨0, crs.g1_gen⟩) x') yc.coms (embS (v1 + ⟨0, crs.g2_gen⟩) y) (embS (v1 + ⟨0, crs.g2_gen⟩) y') =
          equ.target • ComT.pairing e (u1 + ⟨0, crs.g1_gen⟩) (v1 + ⟨0, crs.g2_gen⟩)) := by
  obtain ⟨pf, rng', h1, -, -, -, h2⟩ := QuadEqu.other e sch equ x x' y y' xc yc crs rng hx hy hx' hy' hd hu hv hxc hyc
  exact ⟨pf, rng', h1, fun s => h2 s ⟨xc, yc, [pf]⟩ rfl rfl rfl⟩

example (sch : Nat → Scheduler) : ∃ pf rng', Ex.quad7.prove sch [3] [3, 5] Ex.quad7_msg.xcoms Ex.quad7_msg.ycoms Ex.crs7 (1 : Nat) = .ok (pf, rng') ∧
    ∀ sch', ∃ b, Ex.quad7.verify Ex.e7 sch' ⟨Ex.quad7_msg.xcoms, Ex.quad7_msg.ycoms, [pf]⟩ Ex.crs7 = .ok b := by
  obtain ⟨pf, rng', h1, h2⟩ := C112_quad (e := Ex.e7) (crs := Ex.crs7) rfl rfl Ex.quad7 [2] [3] [3, 4] [3, 5] Ex.quad7_msg.xcoms Ex.quad7_msg.ycoms
    (by simp) (by simp) rfl rfl Ex.quad7_dims ⟨_, _, _, rfl, [1], rfl, rfl, by decide⟩ ⟨_, _, _, rfl, [2, 3], rfl, rfl, by decide⟩ sch (1 : Nat)
  exact ⟨pf, rng', h1, fun s => (h2 s).imp fun b h => h.1⟩

/-- C112: values that the bilinear part of the equation does not tell from the committed ones give the very same proof. -/
theorem C112_quad_same {ρ : Type} [Rng ρ F G1 G2] {u0 u1 : Com G1} {v0 v1 : Com G2} (hu : crs.u = [u0, u1]) (hv : crs.v = [v0, v1])
    (equ : QuadEqu F) (x x' : List F) (y y' : List F) (xc : Commit F G1) (yc : Commit F G2)
    (hx : x ≠ []) (hy : y ≠ []) (hx' : x'.length = x.length)
    (hy' : y'.length = y.length) (hd : equ.Dims x.length y.length)
    (hxc : xc.OpensScalar crs.u crs.g1_gen x) (hyc : yc.OpensScalar crs.v crs.g2_gen y) (hl : SameLeft equ.gamma x x')
    (hr : SameRight equ.gamma y y') (sch : Nat → Scheduler) (rng : ρ) :
    equ.prove sch x' y' xc yc crs rng = equ.prove sch x y xc yc crs rng := by
  have hm := List.length_pos_iff.mpr hx
  have hn := List.length_pos_iff.mpr hy
  obtain ⟨m, hxm⟩ : ∃ m, x.length = m := ⟨_, rfl⟩
  obtain ⟨n, hyn⟩ : ∃ n, y.length = n := ⟨_, rfl⟩
  rw [hxm] at hm hd hx'
  rw [hyn] at hn hd hy'
  obtain ⟨a, ha⟩ := exists_ofFn equ.a_consts hd.a
  obtain ⟨b, hb⟩ := exists_ofFn equ.b_consts hd.b
  obtain ⟨γ, hγ⟩ := rect_iff.mp (⟨hd.rows, hd.cols⟩ : Rect _ _ equ.gamma)
  obtain ⟨x, rfl⟩ := exists_ofFn x hxm
  obtain ⟨y, rfl⟩ := exists_ofFn y hyn
  obtain ⟨x', rfl⟩ := exists_ofFn x' hx'
  obtain ⟨y', rfl⟩ := exists_ofFn y' hy'
  rw [hγ, sameLeft_ofFn] at hl
  rw [hγ, sameRight_ofFn] at hr
  obtain ⟨_, _, _, -, R, hR, -⟩ := opensScalar_ofFn.mp hxc
  obtain ⟨_, _, _, -, S, hS, -⟩ := opensScalar_ofFn.mp hyc
  have key := fun x y => QuadEqu.prove_closed (sch := sch) (rng := rng) hm hn ha hb hγ x y hR hS hu hv
    (T := ![![(d1 F G1 G2 rng).1]]) rfl rfl
  rw [key, key]
  have hpi : piVal (fun i => b i • (v1 + Com2.linearMap crs.g2_gen)) (fun i => y' i • (v1 + Com2.linearMap crs.g2_gen)) γ R S ![![(d1 F G1 G2 rng).1]] ![v0] =
      piVal (fun i => b i • (v1 + Com2.linearMap crs.g2_gen)) (fun i => y i • (v1 + Com2.linearMap crs.g2_gen)) γ R S ![![(d1 F G1 G2 rng).1]] ![v0] := by
    funext k
    rw [piVal_other _ (fun i => y i • (v1 + Com2.linearMap crs.g2_gen)) (fun i => y' i • (v1 + Com2.linearMap crs.g2_gen))]
    have : ∀ i, ∑ j, γ i j • ((fun i => y i • (v1 + Com2.linearMap crs.g2_gen)) j - (fun i => y' i • (v1 + Com2.linearMap crs.g2_gen)) j) = 0 := fun i => (smul_comb _ (fun j => γ i j) y y').trans (by rw [hr i, zero_smul])
    simp only [this, smul_zero, Finset.sum_const_zero, sub_zero]
  have hth : thetaVal (fun i => a i • (u1 + Com1.linearMap crs.g1_gen)) (fun i => x' i • (u1 + Com1.linearMap crs.g1_gen)) γ S ![![(d1 F G1 G2 rng).1]] ![u0] =
      thetaVal (fun i => a i • (u1 + Com1.linearMap crs.g1_gen)) (fun i => x i • (u1 + Com1.linearMap crs.g1_gen)) γ S ![![(d1 F G1 G2 rng).1]] ![u0] := by
    funext k
    rw [thetaVal_other _ (fun i => x i • (u1 + Com1.linearMap crs.g1_gen)) (fun i => x' i • (u1 + Com1.linearMap crs.g1_gen))]
    have : ∀ j, ∑ i, γ i j • ((fun i => x i • (u1 + Com1.linearMap crs.g1_gen)) i - (fun i => x' i • (u1 + Com1.linearMap crs.g1_gen)) i) = 0 := fun j => (smul_comb _ (fun i => γ i j) x x').trans (by rw [hl j, zero_smul])
    simp only [this, smul_zero, Finset.sum_const_zero, sub_zero]
  rw [hpi, hth]

example (sch : Nat → Scheduler) : Ex.quad7.prove sch [2] [0, 2] Ex.quad7_msg.xcoms Ex.quad7_msg.ycoms Ex.crs7 (1 : Nat) =
    Ex.quad7.prove sch [2] [3, 4] Ex.quad7_msg.xcoms Ex.quad7_msg.ycoms Ex.crs7 (1 : Nat) :=
  C112_quad_same (crs := Ex.crs7) rfl rfl Ex.quad7 [2] [2] [3, 4] [0, 2] Ex.quad7_msg.xcoms Ex.quad7_msg.ycoms
    (by simp) (by simp) rfl rfl Ex.quad7_dims ⟨_, _, _, rfl, [1], rfl, rfl, by decide⟩ ⟨_, _, _, rfl, [2, 3], rfl, rfl, by decide⟩ (fun _ => rfl) (by intro row h; rw [List.mem_singleton.mp h]; decide) sch 1

section
variable [Fintype F]

/-- C112: after committing to `x` and `y` at random, a proof computed for values that the bilinear part of the quadratic equation tells from the
committed ones is accepted with probability at most `1 / |F|`. -/
theorem C112_quad_chance (he : PrimeGroups e) {u0 u1 : Com G1} {v0 v1 : Com G2} (hu : crs.u = [u0, u1]) (hv : crs.v = [v0, v1])
    (hu0 : u0 ≠ 0) (hv0 : v0 ≠ 0) (hu1 : u1 + ⟨0, crs.g1_gen⟩ ≠ 0) (hv1 : v1 + ⟨0, crs.g2_gen⟩ ≠ 0)
    (equ : QuadEqu F) (x x' : List F) (y y' : List F)
    (hx : x ≠ []) (hy : y ≠ []) (hx' : x'.length = x.length)
    (hy' : y'.length = y.length) (hd : equ.Dims x.length y.length)
    (h : ¬ (SameLeft equ.gamma x x' ∧ SameRight equ.gamma y y')) (sch : Nat → Scheduler) (sch' : Scheduler) :
    chance (x.length + y.length + 1) (fun rng : List F => equ.proveOther sch x x' y y' crs rng)
      (fun cp => equ.verify e sch' cp crs = .ok true) ≤ 1 / Fintype.card F := by
  classical
  have hm := List.length_pos_iff.mpr hx
  have hn := List.length_pos_iff.mpr hy
  have key := fun xc yc (rng : List F) ox oy => C112_quad (e := e) hu hv equ x x' y y' xc yc hx hy hx' hy' hd ox oy sch rng
  obtain ⟨m, hxm⟩ : ∃ m, x.length = m := ⟨_, rfl⟩
  obtain ⟨n, hyn⟩ : ∃ n, y.length = n := ⟨_, rfl⟩
  rw [hxm] at hm hd hx' ⊢
  rw [hyn] at hn hd hy' ⊢
  obtain ⟨γ, hγ⟩ := rect_iff.mp (⟨hd.rows, hd.cols⟩ : Rect _ _ equ.gamma)
  obtain ⟨x, rfl⟩ := exists_ofFn x hxm
  obtain ⟨y, rfl⟩ := exists_ofFn y hyn
  obtain ⟨x', rfl⟩ := exists_ofFn x' hx'
  obtain ⟨y', rfl⟩ := exists_ofFn y' hy'
  rw [hγ, sameLeft_ofFn, sameRight_ofFn] at h
  refine chance_le_one (m := m) (n := n) (p := 1) (q := 1) (by ring) _ (fun r cp rest hr hP => ?_)
    (affine_card (ComT.pairL e) (fun j => ∑ i, γ i j • ((fun i => (x i • (u1 + ⟨0, crs.g1_gen⟩) : Com G1)) i - (fun i => (x' i • (u1 + ⟨0, crs.g1_gen⟩) : Com G1)) i))
      (fun i => ∑ j, γ i j • ((fun j => (y j • (v1 + ⟨0, crs.g2_gen⟩) : Com G2)) j - (fun j => (y' j • (v1 + ⟨0, crs.g2_gen⟩) : Com G2)) j)) ![u0] ![v0] 0 0 0 0
      (equ.target • ComT.pairing e (u1 + ⟨0, crs.g1_gen⟩) (v1 + ⟨0, crs.g2_gen⟩) - equLhs (fun x y : F => x * y) equ.a_consts (List.ofFn x) equ.b_consts (List.ofFn y) equ.gamma • ComT.pairing e (u1 + ⟨0, crs.g1_gen⟩) (v1 + ⟨0, crs.g2_gen⟩))
      (fun _ h => pairL_ne_zero he h hv0) (fun _ h => pairL_ne_zero he hu0 h) ?_)
  · have hdr := draws_tape' (F := F) (G1 := G1) (G2 := G2) (l := flat r) (n := m + n + 1) (by rw [flat_length]; omega) []
    rw [List.append_nil] at hdr
    obtain ⟨s2, h12, h3⟩ := draws_split (a := m + n) (by simp only [List.length_append, flatten_matOf_length]; omega) hdr
    obtain ⟨s1, h1, h2⟩ := draws_split (by simp only [flatten_matOf_length]; omega) h12
    have ox := (opensScalar_ofFn (c := ⟨List.ofFn (comX ![u0] (fun i => (x i • (u1 + ⟨0, crs.g1_gen⟩) : Com G1)) r), matOf r.1⟩) (g := crs.g1_gen) (x := x)).mpr ⟨u0, u1, [], hu, r.1, rfl, rfl⟩
    have oy := (opensScalar_ofFn (c := ⟨List.ofFn (comY ![v0] (fun j => (y j • (v1 + ⟨0, crs.g2_gen⟩) : Com G2)) r), matOf r.2.1⟩) (g := crs.g2_gen) (x := y)).mpr ⟨v0, v1, [], hv, r.2.1, rfl, rfl⟩
    obtain ⟨pf, s3, hp, hver⟩ := key _ _ s2 ox oy
    rw [QuadEqu.proveOther, batchCommitB1_draws hm x hu h1, ok_bind] at hr
    dsimp only at hr
    rw [batchCommitB2_draws hn y hv h2, ok_bind] at hr
    dsimp only at hr
    rw [scalarCom_sum, scalarCom_sum] at hr
    erw [hp] at hr
    obtain ⟨rfl, -⟩ := Prod.mk.inj (Except.ok.inj hr)
    obtain ⟨b, hb, hb'⟩ := hver sch'
    have heq := hb'.mp (Except.ok.inj (hP.symm.trans hb)).symm
    have hD := defect_lhsOf e γ ![u0] ![v0] (fun i => (x i • (u1 + ⟨0, crs.g1_gen⟩) : Com G1)) (fun i => (x' i • (u1 + ⟨0, crs.g1_gen⟩) : Com G1)) (fun j => (y j • (v1 + ⟨0, crs.g2_gen⟩) : Com G2)) (fun j => (y' j • (v1 + ⟨0, crs.g2_gen⟩) : Com G2)) r
    rw [eq_sub_iff_add_eq, ← hD, add_comm, ← heq, hγ, embS_ofFn, embS_ofFn, embS_ofFn, embS_ofFn]
  · rintro ⟨h1, h2⟩
    refine h ⟨fun j => ?_, fun i => ?_⟩
    · have := congrFun h1 j
      dsimp only at this
      rw [smul_comb] at this
      exact (smul_eq_zero.mp this).resolve_right hu1
    · have := congrFun h2 i
      dsimp only at this
      rw [smul_comb] at this
      exact (smul_eq_zero.mp this).resolve_right hv1

/-- C112 for generated CRSs: a proof computed for values that the bilinear part of the quadratic equation tells from the committed ones is
accepted with probability at most `1 / |F|`. -/
theorem C112_quad_generated (he : PrimeGroups e) (hg : GeneratedCrs e crs) (hnz : crs.NonzeroGens) (equ : QuadEqu F)
    (x x' : List F) (y y' : List F)
    (hx : x ≠ []) (hy : y ≠ []) (hx' : x'.length = x.length)
    (hy' : y'.length = y.length) (hd : equ.Dims x.length y.length)
    (h : ¬ (SameLeft equ.gamma x x' ∧ SameRight equ.gamma y y')) (sch : Nat → Scheduler) (sch' : Scheduler) :
    chance (x.length + y.length + 1) (fun rng : List F => equ.proveOther sch x x' y y' crs rng)
      (fun cp => equ.verify e sch' cp crs = .ok true) ≤ 1 / Fintype.card F := by
  obtain ⟨u0, u1, v0, v1, hu, hv, hu0, hv0, hu1, hv1⟩ := generated_keys hg hnz
  exact C112_quad_chance he hu hv hu0 hv0 hu1 hv1 equ x x' y y' hx hy hx' hy' hd h sch sch'

example (sch : Nat → Scheduler) (sch' : Scheduler) :
    chance 4 (fun rng : List Ex.K => Ex.quad7.proveOther sch [2] [3] [3, 4] [3, 4] Ex.crs7 rng)
      (fun cp => Ex.quad7.verify Ex.e7 sch' cp Ex.crs7 = .ok true) ≤ 1 / Fintype.card Ex.K :=
  C112_quad_generated Ex.prime7 Ex.crs7_generated Ex.crs7_nonzero Ex.quad7 [2] [3] [3, 4] [3, 4] (by simp) (by simp) rfl rfl
    Ex.quad7_dims (fun h => absurd (h.1 0) (by decide)) sch sch'

end

end GS
