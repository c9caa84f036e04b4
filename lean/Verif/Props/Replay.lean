import Verif.Spec.Replay
import Verif.Spec.Joint
import Verif.Lemmas.Replay
import Verif.Props.Completeness
import Verif.Props.Example

/-!
# C97: an honest proof is tied to its equation
-/

set_option linter.unusedSectionVars false
set_option linter.unusedVariables false

open scoped BigOperators

namespace GS
variable {F G1 G2 GT : Type} [Field F] [Fintype F] [AddCommGroup G1] [Module F G1] [AddCommGroup G2] [Module F G2]
  [AddCommGroup GT] [Module F GT] [DecidableEq GT] {e : G1 →ₗ[F] G2 →ₗ[F] GT} {crs : CRS G1 G2 GT}

/-- C97: the output of `commit_and_prove` for a satisfied pairing product equation is accepted for another given equation with
probability at most `2 / |F|`. -/
theorem C97_ppe (he : PrimeGroups e) {u0 u1 : Com G1} {v0 v1 : Com G2} (hu : crs.u = [u0, u1]) (hv : crs.v = [v0, v1])
    (hu0 : u0 ≠ 0) (hv0 : v0 ≠ 0) (equ equ' : PPE F G1 G2 GT)
    (x : List G1) (y : List G2) (hx : x ≠ []) (hy : y ≠ []) (hd : equ.Dims x.length y.length)
    (hd' : equ'.Dims x.length y.length) (h : equ.Holds e x y) (hne : equ' ≠ equ) (sch : Nat → Scheduler) (sch' : Scheduler) :
    chance (2 * x.length + 2 * y.length + 4) (fun rng : List F => equ.commitAndProve sch x y crs rng)
      (fun cp => equ'.verify e sch' cp crs = .ok true) ≤ 2 / Fintype.card F := by
  classical
  have hm := List.length_pos_iff.mpr hx
  have hn := List.length_pos_iff.mpr hy
  have hcap := fun rng : List F => C01_ppe_complete e equ x y crs rng sch sch' hx hy hd (by rw [hu]; rfl) (by rw [hv]; rfl) h
  obtain ⟨m, hxm⟩ : ∃ m, x.length = m := ⟨_, rfl⟩
  obtain ⟨n, hyn⟩ : ∃ n, y.length = n := ⟨_, rfl⟩
  rw [hxm] at hm hd hd' ⊢
  rw [hyn] at hn hd hd' ⊢
  obtain ⟨a, ha⟩ := exists_ofFn equ.a_consts hd.a
  obtain ⟨b, hb⟩ := exists_ofFn equ.b_consts hd.b
  obtain ⟨γ, hγ⟩ := rect_iff.mp (⟨hd.rows, hd.cols⟩ : Rect _ _ equ.gamma)
  obtain ⟨a', ha'⟩ := exists_ofFn equ'.a_consts hd'.a
  obtain ⟨b', hb'⟩ := exists_ofFn equ'.b_consts hd'.b
  obtain ⟨γ', hγ'⟩ := rect_iff.mp (⟨hd'.rows, hd'.cols⟩ : Rect _ _ equ'.gamma)
  obtain ⟨x, rfl⟩ := exists_ofFn x hxm
  obtain ⟨y, rfl⟩ := exists_ofFn y hyn
  refine chance_le (m := m) (n := n) (p := 2) (q := 2) (by ring) _ (fun r cp rest hr hP => ?_)
    (relation_card (ComT.pairL e) ((fun j => (⟨0, a' j⟩ : Com G1)) - fun j => ⟨0, a j⟩)
      ((fun i => (⟨0, b' i⟩ : Com G2)) - fun i => ⟨0, b i⟩) (γ' - γ) ![u0, u1] ![v0, v1] (fun i => ⟨0, x i⟩)
      (fun j => ⟨0, y j⟩) 0 0 (ComT.linearMapPPE equ'.target - ComT.linearMapPPE equ.target)
      (pairL_ne_zero he hu0 hv0) (fun _ h => pairL_ne_zero he h hv0) (fun _ h => pairL_ne_zero he hu0 h) ?_)
  · obtain ⟨cp', rest', h1, h2⟩ := hcap (flat r)
    obtain ⟨rfl, rfl⟩ : cp = cp' ∧ rest = rest' := by simpa [hr] using h1
    have hc := PPE.cap_draws (sch := sch) (rng := flat r) (rng' := []) hm hn ha hb hγ x y hu hv (R := r.1) (S := r.2.1)
      (T := r.2.2) (by
        have := draws_tape' (F := F) (G1 := G1) (G2 := G2) (l := flat r) (n := 2 * m + 2 * n + 4)
          (by rw [flat_length]; omega) []
        rw [List.append_nil] at this
        exact this)
    rw [groupCom_sum, groupCom_sum] at hc
    have hc' := (Prod.mk.inj (Except.ok.inj (hr.symm.trans hc))).1
    have hcx : cp.xcoms.coms = List.ofFn (comX ![u0, u1] (fun i => ⟨0, x i⟩) r) := by rw [hc']; rfl
    have hcy : cp.ycoms.coms = List.ofFn (comY ![v0, v1] (fun j => ⟨0, y j⟩) r) := by rw [hc']; rfl
    obtain ⟨pf, k1, -, k⟩ := (PPE.verify_iff _ _).mp h2
    obtain ⟨pf', k1', -, k'⟩ := (PPE.verify_iff _ _).mp hP
    obtain rfl : pf = pf' := by simpa [k1] using k1'
    rw [hγ, ha, hb, hcx, hcy] at k
    rw [hγ', ha', hb', hcx, hcy] at k'
    refine core_relation (fun _ hl => (Except.ok.inj hl).symm.trans List.map_ofFn) (fun _ hl => (Except.ok.inj hl).symm.trans List.map_ofFn)
      (fun _ hl => (Except.ok.inj hl).symm.trans List.map_ofFn) (fun _ hl => (Except.ok.inj hl).symm.trans List.map_ofFn)
      (fun _ hl => (Except.ok.inj hl).symm) (fun _ hl => (Except.ok.inj hl).symm) k k'
  · rintro ⟨h1, h2, h3, h4⟩
    apply hne
    have e1 := emb_inj_fun h1
    have e2 := emb_inj_fun h2
    have e3 : γ' = γ := sub_eq_zero.mp h3
    have e4 : equ'.target = equ.target := congrArg ComT.t3 (sub_eq_zero.mp h4)
    cases equ; cases equ'
    simp only at ha hb hγ ha' hb' hγ' e4
    rw [ha, hb, hγ, ha', hb', hγ', e1, e2, e3, e4]

/-- C97: the output of `commit_and_prove` for a satisfied multi-scalar equation in `G1` is accepted for another given equation with
probability at most `2 / |F|`. -/
theorem C97_msmeg1 (he : PrimeGroups e) {u0 u1 : Com G1} {v0 v1 : Com G2} (hu : crs.u = [u0, u1]) (hv : crs.v = [v0, v1])
    (hu0 : u0 ≠ 0) (hv0 : v0 ≠ 0) (hv1 : v1 + ⟨0, crs.g2_gen⟩ ≠ 0) (equ equ' : MSMEG1 F G1)
    (x : List G1) (y : List F) (hx : x ≠ []) (hy : y ≠ []) (hd : equ.Dims x.length y.length)
    (hd' : equ'.Dims x.length y.length) (h : equ.Holds x y) (hne : equ' ≠ equ) (sch : Nat → Scheduler) (sch' : Scheduler) :
    chance (2 * x.length + y.length + 2) (fun rng : List F => equ.commitAndProve sch x y crs rng)
      (fun cp => equ'.verify e sch' cp crs = .ok true) ≤ 2 / Fintype.card F := by
  classical
  have hm := List.length_pos_iff.mpr hx
  have hn := List.length_pos_iff.mpr hy
  have hcap := fun rng : List F => C02_msmeg1_complete e equ x y crs rng sch sch' hx hy hd (by rw [hu]; rfl) (by rw [hv]; rfl) h
  obtain ⟨m, hxm⟩ : ∃ m, x.length = m := ⟨_, rfl⟩
  obtain ⟨n, hyn⟩ : ∃ n, y.length = n := ⟨_, rfl⟩
  rw [hxm] at hm hd hd' ⊢
  rw [hyn] at hn hd hd' ⊢
  obtain ⟨a, ha⟩ := exists_ofFn equ.a_consts hd.a
  obtain ⟨b, hb⟩ := exists_ofFn equ.b_consts hd.b
  obtain ⟨γ, hγ⟩ := rect_iff.mp (⟨hd.rows, hd.cols⟩ : Rect _ _ equ.gamma)
  obtain ⟨a', ha'⟩ := exists_ofFn equ'.a_consts hd'.a
  obtain ⟨b', hb'⟩ := exists_ofFn equ'.b_consts hd'.b
  obtain ⟨γ', hγ'⟩ := rect_iff.mp (⟨hd'.rows, hd'.cols⟩ : Rect _ _ equ'.gamma)
  obtain ⟨x, rfl⟩ := exists_ofFn x hxm
  obtain ⟨y, rfl⟩ := exists_ofFn y hyn
  refine chance_le (m := m) (n := n) (p := 2) (q := 1) (by ring) _ (fun r cp rest hr hP => ?_)
    (relation_card (ComT.pairL e) ((fun j => (⟨0, a' j⟩ : Com G1)) - fun j => ⟨0, a j⟩)
      ((fun i => (b' i • (v1 + ⟨0, crs.g2_gen⟩) : Com G2)) - fun i => b i • (v1 + ⟨0, crs.g2_gen⟩)) (γ' - γ) ![u0, u1] ![v0] (fun i => ⟨0, x i⟩)
      (fun j => y j • (v1 + ⟨0, crs.g2_gen⟩)) 0 0 (tMSMEG1 e (v1 + ⟨0, crs.g2_gen⟩) equ'.target - tMSMEG1 e (v1 + ⟨0, crs.g2_gen⟩) equ.target)
      (pairL_ne_zero he hu0 hv0) (fun _ h => pairL_ne_zero he h hv0) (fun _ h => pairL_ne_zero he hu0 h) ?_)
  · obtain ⟨cp', rest', h1, h2⟩ := hcap (flat r)
    obtain ⟨rfl, rfl⟩ : cp = cp' ∧ rest = rest' := by simpa [hr] using h1
    have hc := MSMEG1.cap_draws (sch := sch) (rng := flat r) (rng' := []) hm hn ha hb hγ x y hu hv (R := r.1) (S := r.2.1)
      (T := r.2.2) (by
        have := draws_tape' (F := F) (G1 := G1) (G2 := G2) (l := flat r) (n := 2 * m + n + 2)
          (by rw [flat_length]; omega) []
        rw [List.append_nil] at this
        exact this)
    rw [groupCom_sum, scalarCom_sum] at hc
    have hc' := (Prod.mk.inj (Except.ok.inj (hr.symm.trans hc))).1
    have hcx : cp.xcoms.coms = List.ofFn (comX ![u0, u1] (fun i => ⟨0, x i⟩) r) := by rw [hc']; rfl
    have hcy : cp.ycoms.coms = List.ofFn (comY ![v0] (fun j => y j • (v1 + ⟨0, crs.g2_gen⟩)) r) := by rw [hc']; rfl
    obtain ⟨pf, k1, -, k⟩ := (MSMEG1.verify_iff _ _).mp h2
    obtain ⟨pf', k1', -, k'⟩ := (MSMEG1.verify_iff _ _).mp hP
    obtain rfl : pf = pf' := by simpa [k1] using k1'
    rw [hγ, ha, hb, hcx, hcy] at k
    rw [hγ', ha', hb', hcx, hcy] at k'
    refine core_relation (fun _ hl => (Except.ok.inj hl).symm.trans List.map_ofFn) (fun _ hl => (Except.ok.inj hl).symm.trans List.map_ofFn)
      (fun _ hl => scalar_map2 hv hl) (fun _ hl => scalar_map2 hv hl)
      (fun _ hl => ?_) (fun _ hl => ?_) k k'
    all_goals
      obtain ⟨w, hw, rfl⟩ := linearMapMSMEG1_iff.mp hl
      rw [hv] at hw; cases hw; rfl
  · rintro ⟨h1, h2, h3, h4⟩
    apply hne
    have e1 := emb_inj_fun h1
    have e2 := smul_inj_fun hv1 h2
    have e3 : γ' = γ := sub_eq_zero.mp h3
    have e4 : equ'.target = equ.target := by
      rw [← map_sub] at h4
      have := ((tensor_eq_zero he _ _).mp h4).resolve_right hv1
      exact sub_eq_zero.mp (congrArg Com.c1 this)
    cases equ; cases equ'
    simp only at ha hb hγ ha' hb' hγ' e4
    rw [ha, hb, hγ, ha', hb', hγ', e1, e2, e3, e4]

/-- C97: the output of `commit_and_prove` for a satisfied multi-scalar equation in `G2` is accepted for another given equation with
probability at most `2 / |F|`. -/
theorem C97_msmeg2 (he : PrimeGroups e) {u0 u1 : Com G1} {v0 v1 : Com G2} (hu : crs.u = [u0, u1]) (hv : crs.v = [v0, v1])
    (hu0 : u0 ≠ 0) (hv0 : v0 ≠ 0) (hu1 : u1 + ⟨0, crs.g1_gen⟩ ≠ 0) (equ equ' : MSMEG2 F G2)
    (x : List F) (y : List G2) (hx : x ≠ []) (hy : y ≠ []) (hd : equ.Dims x.length y.length)
    (hd' : equ'.Dims x.length y.length) (h : equ.Holds x y) (hne : equ' ≠ equ) (sch : Nat → Scheduler) (sch' : Scheduler) :
    chance (x.length + 2 * y.length + 2) (fun rng : List F => equ.commitAndProve sch x y crs rng)
      (fun cp => equ'.verify e sch' cp crs = .ok true) ≤ 2 / Fintype.card F := by
  classical
  have hm := List.length_pos_iff.mpr hx
  have hn := List.length_pos_iff.mpr hy
  have hcap := fun rng : List F => C03_msmeg2_complete e equ x y crs rng sch sch' hx hy hd (by rw [hu]; rfl) (by rw [hv]; rfl) h
  obtain ⟨m, hxm⟩ : ∃ m, x.length = m := ⟨_, rfl⟩
  obtain ⟨n, hyn⟩ : ∃ n, y.length = n := ⟨_, rfl⟩
  rw [hxm] at hm hd hd' ⊢
  rw [hyn] at hn hd hd' ⊢
  obtain ⟨a, ha⟩ := exists_ofFn equ.a_consts hd.a
  obtain ⟨b, hb⟩ := exists_ofFn equ.b_consts hd.b
  obtain ⟨γ, hγ⟩ := rect_iff.mp (⟨hd.rows, hd.cols⟩ : Rect _ _ equ.gamma)
  obtain ⟨a', ha'⟩ := exists_ofFn equ'.a_consts hd'.a
  obtain ⟨b', hb'⟩ := exists_ofFn equ'.b_consts hd'.b
  obtain ⟨γ', hγ'⟩ := rect_iff.mp (⟨hd'.rows, hd'.cols⟩ : Rect _ _ equ'.gamma)
  obtain ⟨x, rfl⟩ := exists_ofFn x hxm
  obtain ⟨y, rfl⟩ := exists_ofFn y hyn
  refine chance_le (m := m) (n := n) (p := 1) (q := 2) (by ring) _ (fun r cp rest hr hP => ?_)
    (relation_card (ComT.pairL e) ((fun j => (a' j • (u1 + ⟨0, crs.g1_gen⟩) : Com G1)) - fun j => a j • (u1 + ⟨0, crs.g1_gen⟩))
      ((fun i => (⟨0, b' i⟩ : Com G2)) - fun i => ⟨0, b i⟩) (γ' - γ) ![u0] ![v0, v1] (fun i => x i • (u1 + ⟨0, crs.g1_gen⟩))
      (fun j => ⟨0, y j⟩) 0 0 (tMSMEG2 e (u1 + ⟨0, crs.g1_gen⟩) equ'.target - tMSMEG2 e (u1 + ⟨0, crs.g1_gen⟩) equ.target)
      (pairL_ne_zero he hu0 hv0) (fun _ h => pairL_ne_zero he h hv0) (fun _ h => pairL_ne_zero he hu0 h) ?_)
  · obtain ⟨cp', rest', h1, h2⟩ := hcap (flat r)
    obtain ⟨rfl, rfl⟩ : cp = cp' ∧ rest = rest' := by simpa [hr] using h1
    have hc := MSMEG2.cap_draws (sch := sch) (rng := flat r) (rng' := []) hm hn ha hb hγ x y hu hv (R := r.1) (S := r.2.1)
      (T := r.2.2) (by
        have := draws_tape' (F := F) (G1 := G1) (G2 := G2) (l := flat r) (n := m + 2 * n + 2)
          (by rw [flat_length]; omega) []
        rw [List.append_nil] at this
        exact this)
    rw [scalarCom_sum, groupCom_sum] at hc
    have hc' := (Prod.mk.inj (Except.ok.inj (hr.symm.trans hc))).1
    have hcx : cp.xcoms.coms = List.ofFn (comX ![u0] (fun i => x i • (u1 + ⟨0, crs.g1_gen⟩)) r) := by rw [hc']; rfl
    have hcy : cp.ycoms.coms = List.ofFn (comY ![v0, v1] (fun j => ⟨0, y j⟩) r) := by rw [hc']; rfl
    obtain ⟨pf, k1, -, k⟩ := (MSMEG2.verify_iff _ _).mp h2
    obtain ⟨pf', k1', -, k'⟩ := (MSMEG2.verify_iff _ _).mp hP
    obtain rfl : pf = pf' := by simpa [k1] using k1'
    rw [hγ, ha, hb, hcx, hcy] at k
    rw [hγ', ha', hb', hcx, hcy] at k'
    refine core_relation (fun _ hl => scalar_map1 hu hl) (fun _ hl => scalar_map1 hu hl)
      (fun _ hl => (Except.ok.inj hl).symm.trans List.map_ofFn) (fun _ hl => (Except.ok.inj hl).symm.trans List.map_ofFn)
      (fun _ hl => ?_) (fun _ hl => ?_) k k'
    all_goals
      obtain ⟨w, hw, rfl⟩ := linearMapMSMEG2_iff.mp hl
      rw [hu] at hw; cases hw; rfl
  · rintro ⟨h1, h2, h3, h4⟩
    apply hne
    have e1 := smul_inj_fun hu1 h1
    have e2 := emb_inj_fun h2
    have e3 : γ' = γ := sub_eq_zero.mp h3
    have e4 : equ'.target = equ.target := by
      rw [← map_sub] at h4
      have := ((tensor_eq_zero he _ _).mp h4).resolve_left hu1
      exact sub_eq_zero.mp (congrArg Com.c1 this)
    cases equ; cases equ'
    simp only at ha hb hγ ha' hb' hγ' e4
    rw [ha, hb, hγ, ha', hb', hγ', e1, e2, e3, e4]

/-- C97: the output of `commit_and_prove` for a satisfied quadratic equation is accepted for another given equation with
probability at most `2 / |F|`. -/
theorem C97_quad (he : PrimeGroups e) {u0 u1 : Com G1} {v0 v1 : Com G2} (hu : crs.u = [u0, u1]) (hv : crs.v = [v0, v1])
    (hu0 : u0 ≠ 0) (hv0 : v0 ≠ 0) (hu1 : u1 + ⟨0, crs.g1_gen⟩ ≠ 0) (hv1 : v1 + ⟨0, crs.g2_gen⟩ ≠ 0) (equ equ' : QuadEqu F)
    (x : List F) (y : List F) (hx : x ≠ []) (hy : y ≠ []) (hd : equ.Dims x.length y.length)
    (hd' : equ'.Dims x.length y.length) (h : equ.Holds x y) (hne : equ' ≠ equ) (sch : Nat → Scheduler) (sch' : Scheduler) :
    chance (x.length + y.length + 1) (fun rng : List F => equ.commitAndProve sch x y crs rng)
      (fun cp => equ'.verify e sch' cp crs = .ok true) ≤ 2 / Fintype.card F := by
  classical
  have hm := List.length_pos_iff.mpr hx
  have hn := List.length_pos_iff.mpr hy
  have hcap := fun rng : List F => C04_quad_complete e equ x y crs rng sch sch' hx hy hd (by rw [hu]; rfl) (by rw [hv]; rfl) h
  obtain ⟨m, hxm⟩ : ∃ m, x.length = m := ⟨_, rfl⟩
  obtain ⟨n, hyn⟩ : ∃ n, y.length = n := ⟨_, rfl⟩
  rw [hxm] at hm hd hd' ⊢
  rw [hyn] at hn hd hd' ⊢
  obtain ⟨a, ha⟩ := exists_ofFn equ.a_consts hd.a
  obtain ⟨b, hb⟩ := exists_ofFn equ.b_consts hd.b
  obtain ⟨γ, hγ⟩ := rect_iff.mp (⟨hd.rows, hd.cols⟩ : Rect _ _ equ.gamma)
  obtain ⟨a', ha'⟩ := exists_ofFn equ'.a_consts hd'.a
  obtain ⟨b', hb'⟩ := exists_ofFn equ'.b_consts hd'.b
  obtain ⟨γ', hγ'⟩ := rect_iff.mp (⟨hd'.rows, hd'.cols⟩ : Rect _ _ equ'.gamma)
  obtain ⟨x, rfl⟩ := exists_ofFn x hxm
  obtain ⟨y, rfl⟩ := exists_ofFn y hyn
  refine chance_le (m := m) (n := n) (p := 1) (q := 1) (by ring) _ (fun r cp rest hr hP => ?_)
    (relation_card (ComT.pairL e) ((fun j => (a' j • (u1 + ⟨0, crs.g1_gen⟩) : Com G1)) - fun j => a j • (u1 + ⟨0, crs.g1_gen⟩))
      ((fun i => (b' i • (v1 + ⟨0, crs.g2_gen⟩) : Com G2)) - fun i => b i • (v1 + ⟨0, crs.g2_gen⟩)) (γ' - γ) ![u0] ![v0] (fun i => x i • (u1 + ⟨0, crs.g1_gen⟩))
      (fun j => y j • (v1 + ⟨0, crs.g2_gen⟩)) 0 0 (tQuad e (u1 + ⟨0, crs.g1_gen⟩) (v1 + ⟨0, crs.g2_gen⟩) equ'.target - tQuad e (u1 + ⟨0, crs.g1_gen⟩) (v1 + ⟨0, crs.g2_gen⟩) equ.target)
      (pairL_ne_zero he hu0 hv0) (fun _ h => pairL_ne_zero he h hv0) (fun _ h => pairL_ne_zero he hu0 h) ?_)
  · obtain ⟨cp', rest', h1, h2⟩ := hcap (flat r)
    obtain ⟨rfl, rfl⟩ : cp = cp' ∧ rest = rest' := by simpa [hr] using h1
    have hc := QuadEqu.cap_draws (sch := sch) (rng := flat r) (rng' := []) hm hn ha hb hγ x y hu hv (R := r.1) (S := r.2.1)
      (T := r.2.2) (by
        have := draws_tape' (F := F) (G1 := G1) (G2 := G2) (l := flat r) (n := m + n + 1)
          (by rw [flat_length]; omega) []
        rw [List.append_nil] at this
        exact this)
    rw [scalarCom_sum, scalarCom_sum] at hc
    have hc' := (Prod.mk.inj (Except.ok.inj (hr.symm.trans hc))).1
    have hcx : cp.xcoms.coms = List.ofFn (comX ![u0] (fun i => x i • (u1 + ⟨0, crs.g1_gen⟩)) r) := by rw [hc']; rfl
    have hcy : cp.ycoms.coms = List.ofFn (comY ![v0] (fun j => y j • (v1 + ⟨0, crs.g2_gen⟩)) r) := by rw [hc']; rfl
    obtain ⟨pf, k1, -, k⟩ := (QuadEqu.verify_iff _ _).mp h2
    obtain ⟨pf', k1', -, k'⟩ := (QuadEqu.verify_iff _ _).mp hP
    obtain rfl : pf = pf' := by simpa [k1] using k1'
    rw [hγ, ha, hb, hcx, hcy] at k
    rw [hγ', ha', hb', hcx, hcy] at k'
    refine core_relation (fun _ hl => scalar_map1 hu hl) (fun _ hl => scalar_map1 hu hl)
      (fun _ hl => scalar_map2 hv hl) (fun _ hl => scalar_map2 hv hl)
      (fun _ hl => ?_) (fun _ hl => ?_) k k'
    all_goals
      obtain ⟨w, w', hw, hw', rfl⟩ := linearMapQuad_iff.mp hl
      rw [hu] at hw; rw [hv] at hw'; cases hw; cases hw'; rfl
  · rintro ⟨h1, h2, h3, h4⟩
    apply hne
    have e1 := smul_inj_fun hu1 h1
    have e2 := smul_inj_fun hv1 h2
    have e3 : γ' = γ := sub_eq_zero.mp h3
    have e4 : equ'.target = equ.target := by
      rw [← map_sub] at h4
      exact sub_eq_zero.mp ((smul_eq_zero.mp h4).resolve_right (pairL_ne_zero he hu1 hv1))
    cases equ; cases equ'
    simp only at ha hb hγ ha' hb' hγ' e4
    rw [ha, hb, hγ, ha', hb', hγ', e1, e2, e3, e4]

/-- The conditions above hold for generated CRSs. -/
theorem generated_keys (hg : GeneratedCrs e crs) (hnz : crs.NonzeroGens) :
    ∃ u0 u1 v0 v1, crs.u = [u0, u1] ∧ crs.v = [v0, v1] ∧ u0 ≠ 0 ∧ v0 ≠ 0 ∧ u1 + ⟨0, crs.g1_gen⟩ ≠ 0 ∧
      v1 + ⟨0, crs.g2_gen⟩ ≠ 0 := by
  obtain ⟨a1, t1, a2, t2, hb⟩ := hg.binding
  have key : ∀ {G : Type} [AddCommGroup G] [Module F G] {g : G} (t a : F), g ≠ 0 →
      (⟨t • g, t • a • g⟩ : Com G) + ⟨0, g⟩ ≠ 0 := by
    intro G _ _ g t a hg h
    have h0 : t • g + 0 = 0 := congrArg Com.c0 h
    have h1 : t • a • g + g = 0 := congrArg Com.c1 h
    rw [add_zero] at h0
    rw [smul_comm, h0, smul_zero, zero_add] at h1
    exact hg h1
  refine ⟨_, _, _, _, hb.u, hb.v, fun h => hnz.1 (congrArg Com.c0 h), fun h => hnz.2 (congrArg Com.c0 h), key _ _ hnz.1,
    key _ _ hnz.2⟩

/-- C97 for generated CRSs. -/
theorem C97_ppe_generated (he : PrimeGroups e) (hg : GeneratedCrs e crs) (hnz : crs.NonzeroGens) (equ equ' : PPE F G1 G2 GT)
    (x : List G1) (y : List G2) (hx : x ≠ []) (hy : y ≠ []) (hd : equ.Dims x.length y.length)
    (hd' : equ'.Dims x.length y.length) (h : equ.Holds e x y) (hne : equ' ≠ equ) (sch : Nat → Scheduler) (sch' : Scheduler) :
    chance (2 * x.length + 2 * y.length + 4) (fun rng : List F => equ.commitAndProve sch x y crs rng)
      (fun cp => equ'.verify e sch' cp crs = .ok true) ≤ 2 / Fintype.card F := by
  obtain ⟨u0, u1, v0, v1, hu, hv, hu0, hv0, hu1, hv1⟩ := generated_keys hg hnz
  exact C97_ppe he hu hv hu0 hv0 equ equ' x y hx hy hd hd' h hne sch sch'

example (sch : Nat → Scheduler) (sch' : Scheduler) :
    chance 10 (fun rng : List Ex.K => Ex.ppe7.commitAndProve sch [2] [3, 4] Ex.crs7 rng)
      (fun cp => ({ Ex.ppe7 with target := 2 } : PPE Ex.K Ex.K Ex.K Ex.K).verify Ex.e7 sch' cp Ex.crs7 = .ok true) ≤
      2 / Fintype.card Ex.K :=
  C97_ppe_generated Ex.prime7 Ex.crs7_generated Ex.crs7_nonzero Ex.ppe7 _ [2] [3, 4] (by simp) (by simp) Ex.ppe7_dims
    (by constructor <;> simp [Ex.ppe7]) Ex.ppe7_holds (by simp [Ex.ppe7]; decide) sch sch'

/-- C97 for generated CRSs. -/
theorem C97_msmeg1_generated (he : PrimeGroups e) (hg : GeneratedCrs e crs) (hnz : crs.NonzeroGens) (equ equ' : MSMEG1 F G1)
    (x : List G1) (y : List F) (hx : x ≠ []) (hy : y ≠ []) (hd : equ.Dims x.length y.length)
    (hd' : equ'.Dims x.length y.length) (h : equ.Holds x y) (hne : equ' ≠ equ) (sch : Nat → Scheduler) (sch' : Scheduler) :
    chance (2 * x.length + y.length + 2) (fun rng : List F => equ.commitAndProve sch x y crs rng)
      (fun cp => equ'.verify e sch' cp crs = .ok true) ≤ 2 / Fintype.card F := by
  obtain ⟨u0, u1, v0, v1, hu, hv, hu0, hv0, hu1, hv1⟩ := generated_keys hg hnz
  exact C97_msmeg1 he hu hv hu0 hv0 hv1 equ equ' x y hx hy hd hd' h hne sch sch'

example (sch : Nat → Scheduler) (sch' : Scheduler) :
    chance 6 (fun rng : List Ex.K => Ex.msm1_7.commitAndProve sch [2] [3, 4] Ex.crs7 rng)
      (fun cp => ({ Ex.msm1_7 with target := 2 } : MSMEG1 Ex.K Ex.K).verify Ex.e7 sch' cp Ex.crs7 = .ok true) ≤
      2 / Fintype.card Ex.K :=
  C97_msmeg1_generated Ex.prime7 Ex.crs7_generated Ex.crs7_nonzero Ex.msm1_7 _ [2] [3, 4] (by simp) (by simp) Ex.msm1_7_dims
    (by constructor <;> simp [Ex.msm1_7]) Ex.msm1_7_holds (by simp [Ex.msm1_7]; decide) sch sch'

/-- C97 for generated CRSs. -/
theorem C97_msmeg2_generated (he : PrimeGroups e) (hg : GeneratedCrs e crs) (hnz : crs.NonzeroGens) (equ equ' : MSMEG2 F G2)
    (x : List F) (y : List G2) (hx : x ≠ []) (hy : y ≠ []) (hd : equ.Dims x.length y.length)
    (hd' : equ'.Dims x.length y.length) (h : equ.Holds x y) (hne : equ' ≠ equ) (sch : Nat → Scheduler) (sch' : Scheduler) :
    chance (x.length + 2 * y.length + 2) (fun rng : List F => equ.commitAndProve sch x y crs rng)
      (fun cp => equ'.verify e sch' cp crs = .ok true) ≤ 2 / Fintype.card F := by
  obtain ⟨u0, u1, v0, v1, hu, hv, hu0, hv0, hu1, hv1⟩ := generated_keys hg hnz
  exact C97_msmeg2 he hu hv hu0 hv0 hu1 equ equ' x y hx hy hd hd' h hne sch sch'

example (sch : Nat → Scheduler) (sch' : Scheduler) :
    chance 7 (fun rng : List Ex.K => Ex.msm2_7.commitAndProve sch [2] [3, 4] Ex.crs7 rng)
      (fun cp => ({ Ex.msm2_7 with target := 2 } : MSMEG2 Ex.K Ex.K).verify Ex.e7 sch' cp Ex.crs7 = .ok true) ≤
      2 / Fintype.card Ex.K :=
  C97_msmeg2_generated Ex.prime7 Ex.crs7_generated Ex.crs7_nonzero Ex.msm2_7 _ [2] [3, 4] (by simp) (by simp) Ex.msm2_7_dims
    (by constructor <;> simp [Ex.msm2_7]) Ex.msm2_7_holds (by simp [Ex.msm2_7]; decide) sch sch'

/-- C97 for generated CRSs. -/
theorem C97_quad_generated (he : PrimeGroups e) (hg : GeneratedCrs e crs) (hnz : crs.NonzeroGens) (equ equ' : QuadEqu F)
    (x : List F) (y : List F) (hx : x ≠ []) (hy : y ≠ []) (hd : equ.Dims x.length y.length)
    (hd' : equ'.Dims x.length y.length) (h : equ.Holds x y) (hne : equ' ≠ equ) (sch : Nat → Scheduler) (sch' : Scheduler) :
    chance (x.length + y.length + 1) (fun rng : List F => equ.commitAndProve sch x y crs rng)
      (fun cp => equ'.verify e sch' cp crs = .ok true) ≤ 2 / Fintype.card F := by
  obtain ⟨u0, u1, v0, v1, hu, hv, hu0, hv0, hu1, hv1⟩ := generated_keys hg hnz
  exact C97_quad he hu hv hu0 hv0 hu1 hv1 equ equ' x y hx hy hd hd' h hne sch sch'

example (sch : Nat → Scheduler) (sch' : Scheduler) :
    chance 4 (fun rng : List Ex.K => Ex.quad7.commitAndProve sch [2] [3, 4] Ex.crs7 rng)
      (fun cp => ({ Ex.quad7 with target := 2 } : QuadEqu Ex.K).verify Ex.e7 sch' cp Ex.crs7 = .ok true) ≤
      2 / Fintype.card Ex.K :=
  C97_quad_generated Ex.prime7 Ex.crs7_generated Ex.crs7_nonzero Ex.quad7 _ [2] [3, 4] (by simp) (by simp) Ex.quad7_dims
    (by constructor <;> simp [Ex.quad7]) Ex.quad7_holds (by simp [Ex.quad7]; decide) sch sch'

/-! ### One message for several equations -/

/-- C97: for every assignment there is one message that is accepted for all pairing product equations that the assignment satisfies. -/
theorem C97_ppe_common (hu : crs.u.length = 2) (hv : crs.v.length = 2) (x : List G1) (y : List G2) (hx : x ≠ []) (hy : y ≠ []) :
    ∃ cp : CProof F G1 G2, ∀ equ : PPE F G1 G2 GT, equ.Dims x.length y.length → equ.Holds e x y → ∀ sch,
      equ.verify e sch cp crs = .ok true := by
  have hm := List.length_pos_iff.mpr hx
  have hn := List.length_pos_iff.mpr hy
  have hcap := fun (equ : PPE F G1 G2 GT) (rng : List F) sch hd h => C01_ppe_complete e equ x y crs rng (fun _ => seqSched) sch hx hy hd hu hv h
  obtain ⟨u0, u1, hu⟩ := List.length_eq_two.mp hu
  obtain ⟨v0, v1, hv⟩ := List.length_eq_two.mp hv
  obtain ⟨m, hxm⟩ : ∃ m, x.length = m := ⟨_, rfl⟩
  obtain ⟨n, hyn⟩ : ∃ n, y.length = n := ⟨_, rfl⟩
  rw [hxm] at hm hcap ⊢
  rw [hyn] at hn hcap ⊢
  obtain ⟨x, rfl⟩ := exists_ofFn x hxm
  obtain ⟨y, rfl⟩ := exists_ofFn y hyn
  refine ⟨⟨⟨List.ofFn fun i => groupCom u0 u1 (x i) ((0 : F), (0 : F)), matOf fun (_ : Fin m) (_ : Fin 2) => 0⟩,
    ⟨List.ofFn fun j => groupCom v0 v1 (y j) ((0 : F), (0 : F)), matOf fun (_ : Fin n) (_ : Fin 2) => 0⟩,
    [⟨List.ofFn fun _ : Fin 2 => 0, List.ofFn fun _ : Fin 2 => 0, .PairingProduct, matOf fun (_ : Fin 2) (_ : Fin 2) => 0⟩]⟩, fun equ hd h sch => ?_⟩
  obtain ⟨a, ha⟩ := exists_ofFn equ.a_consts hd.a
  obtain ⟨b, hb⟩ := exists_ofFn equ.b_consts hd.b
  obtain ⟨γ, hγ⟩ := rect_iff.mp (⟨hd.rows, hd.cols⟩ : Rect _ _ equ.gamma)
  have hc := PPE.cap_draws (sch := fun _ => seqSched) (rng := flat (0 : Rands F m n 2 2)) (rng' := []) hm hn ha hb hγ x y hu hv
    (R := fun _ _ => 0) (S := fun _ _ => 0) (T := fun _ _ => 0) (by
      have := draws_tape' (F := F) (G1 := G1) (G2 := G2) (l := flat (0 : Rands F m n 2 2)) (n := 2 * m + 2 * n + 4)
        (by rw [flat_length]; omega) []
      rw [List.append_nil] at this
      exact this)
  rw [show ∀ b y, piVal (F := F) (m := m) (n := n) (p := 2) (q := 2) b y γ (fun _ _ => 0) (fun _ _ => 0) (fun _ _ => 0) ![v0, v1] =
      fun _ => 0 from fun b y => by funext k; simp [piVal_eq],
    show ∀ a x, thetaVal (F := F) (m := m) (n := n) (p := 2) (q := 2) a x γ (fun _ _ => 0) (fun _ _ => 0) ![u0, u1] = fun _ => 0 from
      fun a x => by funext k; simp [thetaVal_eq]] at hc
  obtain ⟨cp, rest, h1, h2⟩ := hcap equ (flat (0 : Rands F m n 2 2)) sch hd h
  have := (Prod.mk.inj (Except.ok.inj (h1.symm.trans hc))).1
  rw [this] at h2
  exact h2

example : ∃ cp : CProof Ex.K Ex.K Ex.K, (∀ sch, Ex.ppe7.verify Ex.e7 sch cp Ex.crs7 = .ok true) ∧
    ∀ sch, (⟨[0, 0], [0], [[0, 0]], 0⟩ : PPE Ex.K Ex.K Ex.K Ex.K).verify Ex.e7 sch cp Ex.crs7 = .ok true := by
  obtain ⟨cp, h⟩ := C97_ppe_common (e := Ex.e7) (crs := Ex.crs7) rfl rfl [2] [3, 4] (by simp) (by simp)
  exact ⟨cp, h _ Ex.ppe7_dims Ex.ppe7_holds, h _ (by constructor <;> simp) (by unfold PPE.Holds; decide)⟩

/-- C97: for every assignment there is one message that is accepted for all multi-scalar equation in `G1`s that the assignment satisfies. -/
theorem C97_msmeg1_common (hu : crs.u.length = 2) (hv : crs.v.length = 2) (x : List G1) (y : List F) (hx : x ≠ []) (hy : y ≠ []) :
    ∃ cp : CProof F G1 G2, ∀ equ : MSMEG1 F G1, equ.Dims x.length y.length → equ.Holds x y → ∀ sch,
      equ.verify e sch cp crs = .ok true := by
  have hm := List.length_pos_iff.mpr hx
  have hn := List.length_pos_iff.mpr hy
  have hcap := fun (equ : MSMEG1 F G1) (rng : List F) sch hd h => C02_msmeg1_complete e equ x y crs rng (fun _ => seqSched) sch hx hy hd hu hv h
  obtain ⟨u0, u1, hu⟩ := List.length_eq_two.mp hu
  obtain ⟨v0, v1, hv⟩ := List.length_eq_two.mp hv
  obtain ⟨m, hxm⟩ : ∃ m, x.length = m := ⟨_, rfl⟩
  obtain ⟨n, hyn⟩ : ∃ n, y.length = n := ⟨_, rfl⟩
  rw [hxm] at hm hcap ⊢
  rw [hyn] at hn hcap ⊢
  obtain ⟨x, rfl⟩ := exists_ofFn x hxm
  obtain ⟨y, rfl⟩ := exists_ofFn y hyn
  refine ⟨⟨⟨List.ofFn fun i => groupCom u0 u1 (x i) ((0 : F), (0 : F)), matOf fun (_ : Fin m) (_ : Fin 2) => 0⟩,
    ⟨List.ofFn fun j => scalarCom v0 v1 crs.g2_gen (y j) (0 : F), matOf fun (_ : Fin n) (_ : Fin 1) => 0⟩,
    [⟨List.ofFn fun _ : Fin 2 => 0, List.ofFn fun _ : Fin 1 => 0, .MultiScalarG1, matOf fun (_ : Fin 1) (_ : Fin 2) => 0⟩]⟩, fun equ hd h sch => ?_⟩
  obtain ⟨a, ha⟩ := exists_ofFn equ.a_consts hd.a
  obtain ⟨b, hb⟩ := exists_ofFn equ.b_consts hd.b
  obtain ⟨γ, hγ⟩ := rect_iff.mp (⟨hd.rows, hd.cols⟩ : Rect _ _ equ.gamma)
  have hc := MSMEG1.cap_draws (sch := fun _ => seqSched) (rng := flat (0 : Rands F m n 2 1)) (rng' := []) hm hn ha hb hγ x y hu hv
    (R := fun _ _ => 0) (S := fun _ _ => 0) (T := fun _ _ => 0) (by
      have := draws_tape' (F := F) (G1 := G1) (G2 := G2) (l := flat (0 : Rands F m n 2 1)) (n := 2 * m + n + 2)
        (by rw [flat_length]; omega) []
      rw [List.append_nil] at this
      exact this)
  rw [show ∀ b y, piVal (F := F) (m := m) (n := n) (p := 2) (q := 1) b y γ (fun _ _ => 0) (fun _ _ => 0) (fun _ _ => 0) ![v0] =
      fun _ => 0 from fun b y => by funext k; simp [piVal_eq],
    show ∀ a x, thetaVal (F := F) (m := m) (n := n) (p := 2) (q := 1) a x γ (fun _ _ => 0) (fun _ _ => 0) ![u0, u1] = fun _ => 0 from
      fun a x => by funext k; simp [thetaVal_eq]] at hc
  obtain ⟨cp, rest, h1, h2⟩ := hcap equ (flat (0 : Rands F m n 2 1)) sch hd h
  have := (Prod.mk.inj (Except.ok.inj (h1.symm.trans hc))).1
  rw [this] at h2
  exact h2

example : ∃ cp : CProof Ex.K Ex.K Ex.K, (∀ sch, Ex.msm1_7.verify Ex.e7 sch cp Ex.crs7 = .ok true) ∧
    ∀ sch, (⟨[0, 0], [0], [[0, 0]], 0⟩ : MSMEG1 Ex.K Ex.K).verify Ex.e7 sch cp Ex.crs7 = .ok true := by
  obtain ⟨cp, h⟩ := C97_msmeg1_common (e := Ex.e7) (crs := Ex.crs7) rfl rfl [2] [3, 4] (by simp) (by simp)
  exact ⟨cp, h _ Ex.msm1_7_dims Ex.msm1_7_holds, h _ (by constructor <;> simp) (by unfold MSMEG1.Holds; decide)⟩

/-- C97: for every assignment there is one message that is accepted for all multi-scalar equation in `G2`s that the assignment satisfies. -/
theorem C97_msmeg2_common (hu : crs.u.length = 2) (hv : crs.v.length = 2) (x : List F) (y : List G2) (hx : x ≠ []) (hy : y ≠ []) :
    ∃ cp : CProof F G1 G2, ∀ equ : MSMEG2 F G2, equ.Dims x.length y.length → equ.Holds x y → ∀ sch,
      equ.verify e sch cp crs = .ok true := by
  have hm := List.length_pos_iff.mpr hx
  have hn := List.length_pos_iff.mpr hy
  have hcap := fun (equ : MSMEG2 F G2) (rng : List F) sch hd h => C03_msmeg2_complete e equ x y crs rng (fun _ => seqSched) sch hx hy hd hu hv h
  obtain ⟨u0, u1, hu⟩ := List.length_eq_two.mp hu
  obtain ⟨v0, v1, hv⟩ := List.length_eq_two.mp hv
  obtain ⟨m, hxm⟩ : ∃ m, x.length = m := ⟨_, rfl⟩
  obtain ⟨n, hyn⟩ : ∃ n, y.length = n := ⟨_, rfl⟩
  rw [hxm] at hm hcap ⊢
  rw [hyn] at hn hcap ⊢
  obtain ⟨x, rfl⟩ := exists_ofFn x hxm
  obtain ⟨y, rfl⟩ := exists_ofFn y hyn
  refine ⟨⟨⟨List.ofFn fun i => scalarCom u0 u1 crs.g1_gen (x i) (0 : F), matOf fun (_ : Fin m) (_ : Fin 1) => 0⟩,
    ⟨List.ofFn fun j => groupCom v0 v1 (y j) ((0 : F), (0 : F)), matOf fun (_ : Fin n) (_ : Fin 2) => 0⟩,
    [⟨List.ofFn fun _ : Fin 1 => 0, List.ofFn fun _ : Fin 2 => 0, .MultiScalarG2, matOf fun (_ : Fin 2) (_ : Fin 1) => 0⟩]⟩, fun equ hd h sch => ?_⟩
  obtain ⟨a, ha⟩ := exists_ofFn equ.a_consts hd.a
  obtain ⟨b, hb⟩ := exists_ofFn equ.b_consts hd.b
  obtain ⟨γ, hγ⟩ := rect_iff.mp (⟨hd.rows, hd.cols⟩ : Rect _ _ equ.gamma)
  have hc := MSMEG2.cap_draws (sch := fun _ => seqSched) (rng := flat (0 : Rands F m n 1 2)) (rng' := []) hm hn ha hb hγ x y hu hv
    (R := fun _ _ => 0) (S := fun _ _ => 0) (T := fun _ _ => 0) (by
      have := draws_tape' (F := F) (G1 := G1) (G2 := G2) (l := flat (0 : Rands F m n 1 2)) (n := m + 2 * n + 2)
        (by rw [flat_length]; omega) []
      rw [List.append_nil] at this
      exact this)
  rw [show ∀ b y, piVal (F := F) (m := m) (n := n) (p := 1) (q := 2) b y γ (fun _ _ => 0) (fun _ _ => 0) (fun _ _ => 0) ![v0, v1] =
      fun _ => 0 from fun b y => by funext k; simp [piVal_eq],
    show ∀ a x, thetaVal (F := F) (m := m) (n := n) (p := 1) (q := 2) a x γ (fun _ _ => 0) (fun _ _ => 0) ![u0] = fun _ => 0 from
      fun a x => by funext k; simp [thetaVal_eq]] at hc
  obtain ⟨cp, rest, h1, h2⟩ := hcap equ (flat (0 : Rands F m n 1 2)) sch hd h
  have := (Prod.mk.inj (Except.ok.inj (h1.symm.trans hc))).1
  rw [this] at h2
  exact h2

example : ∃ cp : CProof Ex.K Ex.K Ex.K, (∀ sch, Ex.msm2_7.verify Ex.e7 sch cp Ex.crs7 = .ok true) ∧
    ∀ sch, (⟨[0, 0], [0], [[0, 0]], 0⟩ : MSMEG2 Ex.K Ex.K).verify Ex.e7 sch cp Ex.crs7 = .ok true := by
  obtain ⟨cp, h⟩ := C97_msmeg2_common (e := Ex.e7) (crs := Ex.crs7) rfl rfl [2] [3, 4] (by simp) (by simp)
  exact ⟨cp, h _ Ex.msm2_7_dims Ex.msm2_7_holds, h _ (by constructor <;> simp) (by unfold MSMEG2.Holds; decide)⟩

/-- C97: for every assignment there is one message that is accepted for all quadratic equations that the assignment satisfies. -/
theorem C97_quad_common (hu : crs.u.length = 2) (hv : crs.v.length = 2) (x : List F) (y : List F) (hx : x ≠ []) (hy : y ≠ []) :
    ∃ cp : CProof F G1 G2, ∀ equ : QuadEqu F, equ.Dims x.length y.length → equ.Holds x y → ∀ sch,
      equ.verify e sch cp crs = .ok true := by
  have hm := List.length_pos_iff.mpr hx
  have hn := List.length_pos_iff.mpr hy
  have hcap := fun (equ : QuadEqu F) (rng : List F) sch hd h => C04_quad_complete e equ x y crs rng (fun _ => seqSched) sch hx hy hd hu hv h
  obtain ⟨u0, u1, hu⟩ := List.length_eq_two.mp hu
  obtain ⟨v0, v1, hv⟩ := List.length_eq_two.mp hv
  obtain ⟨m, hxm⟩ : ∃ m, x.length = m := ⟨_, rfl⟩
  obtain ⟨n, hyn⟩ : ∃ n, y.length = n := ⟨_, rfl⟩
  rw [hxm] at hm hcap ⊢
  rw [hyn] at hn hcap ⊢
  obtain ⟨x, rfl⟩ := exists_ofFn x hxm
  obtain ⟨y, rfl⟩ := exists_ofFn y hyn
  refine ⟨⟨⟨List.ofFn fun i => scalarCom u0 u1 crs.g1_gen (x i) (0 : F), matOf fun (_ : Fin m) (_ : Fin 1) => 0⟩,
    ⟨List.ofFn fun j => scalarCom v0 v1 crs.g2_gen (y j) (0 : F), matOf fun (_ : Fin n) (_ : Fin 1) => 0⟩,
    [⟨List.ofFn fun _ : Fin 1 => 0, List.ofFn fun _ : Fin 1 => 0, .Quadratic, matOf fun (_ : Fin 1) (_ : Fin 1) => 0⟩]⟩, fun equ hd h sch => ?_⟩
  obtain ⟨a, ha⟩ := exists_ofFn equ.a_consts hd.a
  obtain ⟨b, hb⟩ := exists_ofFn equ.b_consts hd.b
  obtain ⟨γ, hγ⟩ := rect_iff.mp (⟨hd.rows, hd.cols⟩ : Rect _ _ equ.gamma)
  have hc := QuadEqu.cap_draws (sch := fun _ => seqSched) (rng := flat (0 : Rands F m n 1 1)) (rng' := []) hm hn ha hb hγ x y hu hv
    (R := fun _ _ => 0) (S := fun _ _ => 0) (T := fun _ _ => 0) (by
      have := draws_tape' (F := F) (G1 := G1) (G2 := G2) (l := flat (0 : Rands F m n 1 1)) (n := m + n + 1)
        (by rw [flat_length]; omega) []
      rw [List.append_nil] at this
      exact this)
  rw [show ∀ b y, piVal (F := F) (m := m) (n := n) (p := 1) (q := 1) b y γ (fun _ _ => 0) (fun _ _ => 0) (fun _ _ => 0) ![v0] =
      fun _ => 0 from fun b y => by funext k; simp [piVal_eq],
    show ∀ a x, thetaVal (F := F) (m := m) (n := n) (p := 1) (q := 1) a x γ (fun _ _ => 0) (fun _ _ => 0) ![u0] = fun _ => 0 from
      fun a x => by funext k; simp [thetaVal_eq]] at hc
  obtain ⟨cp, rest, h1, h2⟩ := hcap equ (flat (0 : Rands F m n 1 1)) sch hd h
  have := (Prod.mk.inj (Except.ok.inj (h1.symm.trans hc))).1
  rw [this] at h2
  exact h2

example : ∃ cp : CProof Ex.K Ex.K Ex.K, (∀ sch, Ex.quad7.verify Ex.e7 sch cp Ex.crs7 = .ok true) ∧
    ∀ sch, (⟨[0, 0], [0], [[0, 0]], 0⟩ : QuadEqu Ex.K).verify Ex.e7 sch cp Ex.crs7 = .ok true := by
  obtain ⟨cp, h⟩ := C97_quad_common (e := Ex.e7) (crs := Ex.crs7) rfl rfl [2] [3, 4] (by simp) (by simp)
  exact ⟨cp, h _ Ex.quad7_dims Ex.quad7_holds, h _ (by constructor <;> simp) (by unfold QuadEqu.Holds; decide)⟩

end GS
