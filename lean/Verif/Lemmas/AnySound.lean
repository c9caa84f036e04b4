import Verif.Lemmas.AnyKey

/-! Extraction on arbitrary binding keys, and accepted proofs of false statements on the other keys. -/

set_option linter.unusedSectionVars false
set_option linter.unusedVariables false

namespace GS
variable {F G G1 G2 GT : Type} [Field F] [AddCommGroup G] [Module F G] [AddCommGroup G1] [Module F G1]
  [AddCommGroup G2] [Module F G2] [AddCommGroup GT] [Module F GT]

theorem lf_lin (α β : F) (x : G) : lf α β (⟨0, x⟩ : Com G) = β • x := by simp [lf_apply]

theorem lfT_sum_left (e : G1 →ₗ[F] G2 →ₗ[F] GT) {α1 β1 α2 β2 : F} {u : List (Com G1)} {l : List (Com G2)}
    (hu : ∀ c ∈ u, lf α1 β1 c = 0) :
    lfT α1 β1 α2 β2 (List.zipWith (fun x y => ComT.pairing e x y) u l).sum = 0 := by
  induction u generalizing l with
  | nil => simp
  | cons c u ih =>
    cases l with
    | nil => simp
    | cons d l =>
      simp only [List.zipWith_cons_cons, List.sum_cons, map_add, lfT_pairing]
      rw [hu c (by simp), ih fun c hc => hu c (by simp [hc])]
      simp

theorem lfT_sum_right (e : G1 →ₗ[F] G2 →ₗ[F] GT) {α1 β1 α2 β2 : F} {v : List (Com G2)} {l : List (Com G1)}
    (hv : ∀ c ∈ v, lf α2 β2 c = 0) :
    lfT α1 β1 α2 β2 (List.zipWith (fun x y => ComT.pairing e x y) l v).sum = 0 := by
  induction v generalizing l with
  | nil => simp
  | cons c u ih =>
    cases l with
    | nil => simp
    | cons d l =>
      simp only [List.zipWith_cons_cons, List.sum_cons, map_add, lfT_pairing]
      rw [hv c (by simp), ih fun c hc => hv c (by simp [hc])]
      simp

theorem lfT_head_left (e : G1 →ₗ[F] G2 →ₗ[F] GT) {α1 β1 α2 β2 : F} {u0 : Com G1} {u' : List (Com G1)}
    {l : List (Com G2)} {t : ComT GT} (hu : lf α1 β1 u0 = 0)
    (h : (do pure (ComT.pairing e (← idx (u0 :: u') 0) (← idx l 0)) : Res _) = .ok t) :
    lfT α1 β1 α2 β2 t = 0 := by
  simp only [bind_ok_iff, pure_eq_ok, Except.ok.injEq, idx_eq_ok] at h
  obtain ⟨c, hc, d, hd, rfl⟩ := h
  cases hc
  rw [lfT_pairing, hu]
  simp

theorem lfT_head_right (e : G1 →ₗ[F] G2 →ₗ[F] GT) {α1 β1 α2 β2 : F} {v0 : Com G2} {v' : List (Com G2)}
    {l : List (Com G1)} {t : ComT GT} (hv : lf α2 β2 v0 = 0)
    (h : (do pure (ComT.pairing e (← idx l 0) (← idx (v0 :: v') 0)) : Res _) = .ok t) :
    lfT α1 β1 α2 β2 t = 0 := by
  simp only [bind_ok_iff, pure_eq_ok, Except.ok.injEq, idx_eq_ok] at h
  obtain ⟨c, hc, d, hd, rfl⟩ := h
  cases hd
  rw [lfT_pairing, hv]
  simp

variable [DecidableEq GT] {e : G1 →ₗ[F] G2 →ₗ[F] GT} {crs : CRS G1 G2 GT} {sch : Scheduler}

/-- Applying functionals to an accepted verification equation. -/
theorem verifyCore_lf {α1 β1 α2 β2 : F} {gamma : Matrix F}
    {la : Res (List (Com G1))} {lb : Res (List (Com G2))} {c : List (Com G1)} {d : List (Com G2)}
    {lt p1 p2 : Res (ComT GT)} (h : verifyCore e sch gamma la lb c d lt p1 p2 = .ok true)
    (h1 : ∀ q, p1 = .ok q → lfT α1 β1 α2 β2 q = 0) (h2 : ∀ q, p2 = .ok q → lfT α1 β1 α2 β2 q = 0) :
    ∃ a b t, la = .ok a ∧ lb = .ok b ∧ lt = .ok t ∧
      equLhs (fun x y => e x y) (a.map (lf α1 β1)) (c.map (lf α1 β1)) (b.map (lf α2 β2)) (d.map (lf α2 β2)) gamma =
        lfT α1 β1 α2 β2 t := by
  obtain ⟨a, b, t, q1, q2, ha, hb, ht, hq1, hq2, -, -, -, hr⟩ := verifyCore_iff.mp h
  have hr := of_decide_eq_true hr.symm
  refine ⟨a, b, t, ha, hb, ht, ?_⟩
  rw [← equLhs_map (F := F) (fun x y => ComT.pairing e x y) (fun x y => e x y) (lf α1 β1) (lf α2 β2)
    (lfT α1 β1 α2 β2) (lfT_pairing e α1 β1 α2 β2), hr, map_add, map_add, h1 _ hq1, h2 _ hq2, add_zero, add_zero]

theorem lf_batch1 (α : F) (l : List G1) : (Com1.batchLinearMap l).map (lf α 1) = l := by
  rw [Com1.batchLinearMap, List.map_map]
  conv_rhs => rw [← List.map_id l]
  exact List.map_congr_left fun x _ => by simp [Com1.linearMap, lf_lin]

theorem lf_batch2 (α : F) (l : List G2) : (Com2.batchLinearMap l).map (lf α 1) = l := by
  rw [Com2.batchLinearMap, List.map_map]
  conv_rhs => rw [← List.map_id l]
  exact List.map_congr_left fun x _ => by simp [Com2.linearMap, lf_lin]

theorem lf_batchScalar1 {α β : F} {u0 u1 : Com G1} {u' : List (Com G1)} (hu : crs.u = u0 :: u1 :: u') {l : List F}
    {c : List (Com G1)} (h : Com1.batchScalarLinearMap l crs = .ok c) :
    c.map (lf α β) = l.map (· • lf α β (u1 + ⟨0, crs.g1_gen⟩)) := by
  rcases batchScalarLinearMap1_iff.mp h with ⟨rfl, rfl⟩ | ⟨w, hw, rfl⟩
  · rfl
  · rw [hu] at hw; cases hw
    rw [List.map_map]
    exact List.map_congr_left fun x _ => by
      simp only [Function.comp, map_smul]; rfl

theorem lf_batchScalar2 {α β : F} {v0 v1 : Com G2} {v' : List (Com G2)} (hv : crs.v = v0 :: v1 :: v') {l : List F}
    {c : List (Com G2)} (h : Com2.batchScalarLinearMap l crs = .ok c) :
    c.map (lf α β) = l.map (· • lf α β (v1 + ⟨0, crs.g2_gen⟩)) := by
  rcases batchScalarLinearMap2_iff.mp h with ⟨rfl, rfl⟩ | ⟨w, hw, rfl⟩
  · rfl
  · rw [hv] at hw; cases hw
    rw [List.map_map]
    exact List.map_congr_left fun x _ => by
      simp only [Function.comp, map_smul]; rfl

/-- Coordinates with respect to a generator. -/
theorem exists_coords (hc : ∀ g : G, g ≠ 0 → ∀ x : G, ∃ k : F, x = k • g) {p : G} (hp : p ≠ 0) (l : List G) :
    ∃ k : List F, k.map (· • p) = l := by
  induction l with
  | nil => exact ⟨[], rfl⟩
  | cons x l ih =>
    obtain ⟨k, rfl⟩ := ih
    obtain ⟨c, rfl⟩ := hc p hp x
    exact ⟨c :: k, rfl⟩

theorem onlyGroup_map {u0 u1 : Com G} {u' : List (Com G)} {α : F} (h0 : lf α 1 u0 = 0) (h1 : lf α 1 u1 = 0)
    (l : List (Com G)) : OnlyGroup F (u0 :: u1 :: u') l (l.map (lf α 1)) := by
  unfold OnlyGroup
  induction l with
  | nil => exact .nil
  | cons c l ih =>
    refine .cons (fun x' hx => ?_) ih
    obtain ⟨r, rfl⟩ := canOpenGroup_cons.mp hx
    simp [groupCom, h0, h1, lf_lin]

theorem onlyScalar_map {u0 u1 : Com G} {u' : List (Com G)} {g : G} {α β : F} (h0 : lf α β u0 = 0)
    (h1 : lf α β (u1 + ⟨0, g⟩) ≠ 0) (l : List (Com G)) (k : List F)
    (hk : k.map (· • lf α β (u1 + ⟨0, g⟩)) = l.map (lf α β)) : OnlyScalar (u0 :: u1 :: u') g l k := by
  unfold OnlyScalar
  induction l generalizing k with
  | nil =>
    cases k with
    | nil => exact .nil
    | cons => simp at hk
  | cons c l ih =>
    cases k with
    | nil => simp at hk
    | cons k0 k =>
      simp only [List.map_cons, List.cons.injEq] at hk
      refine .cons (fun x' hx => ?_) (ih _ hk.2)
      obtain ⟨r, rfl⟩ := canOpenScalar_cons.mp hx
      have := hk.1
      simp only [scalarCom, map_add (lf α β) (_ • _), map_smul, h0, smul_zero, add_zero] at this
      exact (smul_left_injective F h1 this).symm

/-! ### Extraction -/

theorem PPE.extract_any (he : PrimeGroups e) (hu : crs.u.length = 2) (hv : crs.v.length = 2)
    (b1 : BindingGroup F crs.u) (b2 : BindingGroup F crs.v) {equ : PPE F G1 G2 GT} {cp : CProof F G1 G2}
    (h : equ.verify e sch cp crs = .ok true) :
    ∃ x y, OnlyGroup F crs.u cp.xcoms.coms x ∧ OnlyGroup F crs.v cp.ycoms.coms y ∧ equ.Holds e x y := by
  obtain ⟨u0, u1, hu⟩ := two_of_length hu
  obtain ⟨v0, v1, hv⟩ := two_of_length hv
  rw [hu] at b1 ⊢
  rw [hv] at b2 ⊢
  obtain ⟨α1, hu0, hu1⟩ := b1.functional he.cyclic1
  obtain ⟨α2, hv0, hv1⟩ := b2.functional he.cyclic2
  obtain ⟨pf, -, -, h⟩ := (PPE.verify_iff e sch).mp h
  obtain ⟨a, b, t, ha, hb', ht, h⟩ := verifyCore_lf (α1 := α1) (β1 := 1) (α2 := α2) (β2 := 1) h
    (fun q hq => by
      rw [(ComT.pairingSum_iff e).mp hq |>.2]; exact lfT_sum_left e (by rw [hu]; simp [hu0, hu1]))
    (fun q hq => by
      rw [(ComT.pairingSum_iff e).mp hq |>.2]; exact lfT_sum_right e (by rw [hv]; simp [hv0, hv1]))
  cases ha; cases hb'; cases ht
  refine ⟨_, _, onlyGroup_map hu0 hu1 _, onlyGroup_map hv0 hv1 _, ?_⟩
  rw [lf_batch1, lf_batch2] at h
  rw [PPE.Holds, h]
  simp [lfT, ComT.linearMapPPE]

theorem MSMEG1.extract_any (he : PrimeGroups e) (hu : crs.u.length = 2) (hv : crs.v.length = 2)
    (b1 : BindingGroup F crs.u) (b2 : BindingScalar F crs.v crs.g2_gen) {equ : MSMEG1 F G1} {cp : CProof F G1 G2}
    (h : equ.verify e sch cp crs = .ok true) :
    ∃ x y, OnlyGroup F crs.u cp.xcoms.coms x ∧ OnlyScalar crs.v crs.g2_gen cp.ycoms.coms y ∧ equ.Holds x y := by
  obtain ⟨u0, u1, hu⟩ := two_of_length hu
  obtain ⟨v0, v1, hv⟩ := two_of_length hv
  rw [hu] at b1 ⊢
  rw [hv] at b2 ⊢
  obtain ⟨α1, hu0, hu1⟩ := b1.functional he.cyclic1
  obtain ⟨α2, β2, hv0, hv1⟩ := b2.functional he.cyclic2
  obtain ⟨pf, -, -, h⟩ := (MSMEG1.verify_iff e sch).mp h
  obtain ⟨a, b, t, ha, hb', ht, h⟩ := verifyCore_lf (α1 := α1) (β1 := 1) (α2 := α2) (β2 := β2) h
    (fun q hq => by
      rw [(ComT.pairingSum_iff e).mp hq |>.2]; exact lfT_sum_left e (by rw [hu]; simp [hu0, hu1]))
    (fun q hq => by rw [hv] at hq; exact lfT_head_right e hv0 hq)
  cases ha
  obtain ⟨y, hy⟩ := exists_coords (F := F) he.cyclic2 hv1 (cp.ycoms.coms.map (lf α2 β2))
  refine ⟨_, _, onlyGroup_map hu0 hu1 _, onlyScalar_map hv0 hv1 _ y hy, ?_⟩
  obtain ⟨w, hw, rfl⟩ := linearMapMSMEG1_iff.mp ht
  rw [hv] at hw; cases hw
  rw [lf_batch1, lf_batchScalar2 hv hb', ← hy] at h
  change _ = lfT _ _ _ _ (ComT.pairing e _ _) at h
  rw [lfT_pairing, i1_apply, lf_lin, one_smul] at h
  have := equLhs_map (F := F) (fun (x : G1) (y : F) => y • x) (fun x y => e x y) id
    (· • lf α2 β2 (v1 + ⟨0, crs.g2_gen⟩)) (e.flip (lf α2 β2 (v1 + ⟨0, crs.g2_gen⟩))) (fun x y => by simp)
    equ.a_consts (cp.xcoms.coms.map (lf α1 1)) equ.b_consts y equ.gamma
  rw [List.map_id, List.map_id] at this
  have := this.trans h
  rw [LinearMap.flip_apply, ← sub_eq_zero] at this
  change (e _) _ - (e _) (lf α2 β2 (v1 + ⟨0, crs.g2_gen⟩)) = 0 at this
  rw [← LinearMap.sub_apply, ← map_sub] at this
  exact sub_eq_zero.mp ((he.nondeg _ _ this).resolve_right hv1)

theorem MSMEG2.extract_any (he : PrimeGroups e) (hu : crs.u.length = 2) (hv : crs.v.length = 2)
    (b1 : BindingScalar F crs.u crs.g1_gen) (b2 : BindingGroup F crs.v) {equ : MSMEG2 F G2} {cp : CProof F G1 G2}
    (h : equ.verify e sch cp crs = .ok true) :
    ∃ x y, OnlyScalar crs.u crs.g1_gen cp.xcoms.coms x ∧ OnlyGroup F crs.v cp.ycoms.coms y ∧ equ.Holds x y := by
  obtain ⟨u0, u1, hu⟩ := two_of_length hu
  obtain ⟨v0, v1, hv⟩ := two_of_length hv
  rw [hu] at b1 ⊢
  rw [hv] at b2 ⊢
  obtain ⟨α1, β1, hu0, hu1⟩ := b1.functional he.cyclic1
  obtain ⟨α2, hv0, hv1⟩ := b2.functional he.cyclic2
  obtain ⟨pf, -, -, h⟩ := (MSMEG2.verify_iff e sch).mp h
  obtain ⟨a, b, t, ha, hb', ht, h⟩ := verifyCore_lf (α1 := α1) (β1 := β1) (α2 := α2) (β2 := 1) h
    (fun q hq => by rw [hu] at hq; exact lfT_head_left e hu0 hq)
    (fun q hq => by
      rw [(ComT.pairingSum_iff e).mp hq |>.2]; exact lfT_sum_right e (by rw [hv]; simp [hv0, hv1]))
  cases hb'
  obtain ⟨x, hx⟩ := exists_coords (F := F) he.cyclic1 hu1 (cp.xcoms.coms.map (lf α1 β1))
  refine ⟨_, _, onlyScalar_map hu0 hu1 _ x hx, onlyGroup_map hv0 hv1 _, ?_⟩
  obtain ⟨w, hw, rfl⟩ := linearMapMSMEG2_iff.mp ht
  rw [hu] at hw; cases hw
  rw [lf_batch2, lf_batchScalar1 hu ha, ← hx] at h
  change _ = lfT _ _ _ _ (ComT.pairing e _ _) at h
  rw [lfT_pairing, i2_apply, lf_lin, one_smul] at h
  have := equLhs_map (F := F) (fun (x : F) (y : G2) => x • y) (fun x y => e x y)
    (· • lf α1 β1 (u1 + ⟨0, crs.g1_gen⟩)) id (e (lf α1 β1 (u1 + ⟨0, crs.g1_gen⟩))) (fun x y => by simp)
    equ.a_consts x equ.b_consts (cp.ycoms.coms.map (lf α2 1)) equ.gamma
  rw [List.map_id, List.map_id] at this
  have := this.trans h
  rw [← sub_eq_zero] at this
  change (e (lf α1 β1 (u1 + ⟨0, crs.g1_gen⟩))) _ - (e _) _ = 0 at this
  erw [← map_sub] at this
  exact sub_eq_zero.mp ((he.nondeg _ _ this).resolve_left hu1)

theorem QuadEqu.extract_any (he : PrimeGroups e) (hu : 2 ≤ crs.u.length) (hv : 2 ≤ crs.v.length)
    (b1 : BindingScalar F crs.u crs.g1_gen) (b2 : BindingScalar F crs.v crs.g2_gen) {equ : QuadEqu F}
    {cp : CProof F G1 G2} (h : equ.verify e sch cp crs = .ok true) :
    ∃ x y, OnlyScalar crs.u crs.g1_gen cp.xcoms.coms x ∧ OnlyScalar crs.v crs.g2_gen cp.ycoms.coms y ∧
      equ.Holds x y := by
  obtain ⟨u0, u1, u', hu⟩ := two_le_length hu
  obtain ⟨v0, v1, v', hv⟩ := two_le_length hv
  rw [hu] at b1 ⊢
  rw [hv] at b2 ⊢
  obtain ⟨α1, β1, hu0, hu1⟩ := b1.functional he.cyclic1
  obtain ⟨α2, β2, hv0, hv1⟩ := b2.functional he.cyclic2
  obtain ⟨pf, -, -, h⟩ := (QuadEqu.verify_iff e sch).mp h
  obtain ⟨a, b, t, ha, hb', ht, h⟩ := verifyCore_lf (α1 := α1) (β1 := β1) (α2 := α2) (β2 := β2) h
    (fun q hq => by rw [hu] at hq; exact lfT_head_left e hu0 hq)
    (fun q hq => by rw [hv] at hq; exact lfT_head_right e hv0 hq)
  obtain ⟨x, hx⟩ := exists_coords (F := F) he.cyclic1 hu1 (cp.xcoms.coms.map (lf α1 β1))
  obtain ⟨y, hy⟩ := exists_coords (F := F) he.cyclic2 hv1 (cp.ycoms.coms.map (lf α2 β2))
  refine ⟨_, _, onlyScalar_map hu0 hu1 _ x hx, onlyScalar_map hv0 hv1 _ y hy, ?_⟩
  obtain ⟨w1, w2, hw1, hw2, rfl⟩ := linearMapQuad_iff.mp ht
  rw [hu] at hw1; cases hw1
  rw [hv] at hw2; cases hw2
  rw [lf_batchScalar1 hu ha, lf_batchScalar2 hv hb', ← hx, ← hy] at h
  change _ = lfT _ _ _ _ (equ.target • ComT.pairing e _ _) at h
  rw [map_smul, lfT_pairing] at h
  have := equLhs_map (F := F) (fun x y : F => x * y) (fun x y => e x y) (· • lf α1 β1 (u1 + ⟨0, crs.g1_gen⟩))
    (· • lf α2 β2 (v1 + ⟨0, crs.g2_gen⟩))
    (LinearMap.toSpanSingleton F GT (e (lf α1 β1 (u1 + ⟨0, crs.g1_gen⟩)) (lf α2 β2 (v1 + ⟨0, crs.g2_gen⟩))))
    (fun x y => by simp only [LinearMap.toSpanSingleton_apply, map_smul, LinearMap.smul_apply]; module)
    equ.a_consts x equ.b_consts y equ.gamma
  have := this.trans h
  rw [LinearMap.toSpanSingleton_apply] at this
  have hne : e (lf α1 β1 (u1 + ⟨0, crs.g1_gen⟩)) (lf α2 β2 (v1 + ⟨0, crs.g2_gen⟩)) ≠ 0 := fun h => by
    rcases he.nondeg _ _ h with h | h
    · exact hu1 h
    · exact hv1 h
  exact smul_left_injective F hne this

/-! ### Proofs of false statements -/

/-- `0 = t` as a pairing product equation in one variable on each side. -/
def zeroPPE (t : GT) : PPE F G1 G2 GT := ⟨[0], [0], [[0]], t⟩
/-- `0 = t` in `G1`. -/
def zeroMSMEG1 (t : G1) : MSMEG1 F G1 := ⟨[0], [0], [[0]], t⟩
/-- `0 = t` in `G2`. -/
def zeroMSMEG2 (t : G2) : MSMEG2 F G2 := ⟨[0], [0], [[0]], t⟩
/-- `0 = t` in the field. -/
def zeroQuad (t : F) : QuadEqu F := ⟨[0], [0], [[0]], t⟩

theorem equLhs_zero {A B C : Type} [AddCommGroup A] [AddCommGroup B] [AddCommGroup C] [Module F C] (f : A → B → C)
    (h1 : ∀ y, f 0 y = 0) (h2 : ∀ x, f x 0 = 0) (x : List A) (y : List B) :
    equLhs f [0] x [0] y [[(0 : F)]] = 0 := by
  rcases x with _ | ⟨x, xs⟩ <;> rcases y with _ | ⟨y, ys⟩ <;> simp [equLhs, h1, h2]

omit [DecidableEq GT] in
theorem zeroPPE_holds {t : GT} {x : List G1} {y : List G2} : (zeroPPE t : PPE F G1 G2 GT).Holds e x y ↔ t = 0 := by
  simp only [PPE.Holds, zeroPPE]
  rw [equLhs_zero _ (by simp) (by simp)]
  exact eq_comm
theorem zeroMSMEG1_holds {t : G1} {x : List G1} {y : List F} : (zeroMSMEG1 t : MSMEG1 F G1).Holds x y ↔ t = 0 := by
  simp only [MSMEG1.Holds, zeroMSMEG1]
  rw [equLhs_zero _ (by simp) (by simp)]
  exact eq_comm
theorem zeroMSMEG2_holds {t : G2} {x : List F} {y : List G2} : (zeroMSMEG2 t : MSMEG2 F G2).Holds x y ↔ t = 0 := by
  simp only [MSMEG2.Holds, zeroMSMEG2]
  rw [equLhs_zero _ (by simp) (by simp)]
  exact eq_comm
theorem zeroQuad_holds {t : F} {x y : List F} : (zeroQuad t : QuadEqu F).Holds x y ↔ t = 0 := by
  simp only [QuadEqu.Holds, zeroQuad]
  rw [equLhs_zero _ (by simp) (by simp)]
  exact eq_comm

/-- One zero commitment on each side and a proof. -/
def forged (pi : List (Com G2)) (theta : List (Com G1)) (ty : EquType) : CProof F G1 G2 :=
  ⟨⟨[0], []⟩, ⟨[0], []⟩, [⟨pi, theta, ty, []⟩]⟩

theorem gammaDom_one : GammaDom 1 1 [[(0 : F)]] := Or.inr ⟨by omega, by omega, rfl, by simp, by simp⟩

/-- The verification equation of a zero equation. -/
theorem verifyCore_zero {lt p1 p2 : Res (ComT GT)} {t q1 q2 : ComT GT} {la : Res (List (Com G1))}
    {lb : Res (List (Com G2))} (ha : la = .ok [0]) (hb : lb = .ok [0]) (ht : lt = .ok t) (h1 : p1 = .ok q1)
    (h2 : p2 = .ok q2) (h : t + q1 + q2 = 0) :
    verifyCore e sch [[(0 : F)]] la lb [0] [0] lt p1 p2 = .ok true := by
  refine verifyCore_iff.mpr ⟨_, _, _, _, _, ha, hb, ht, h1, h2, rfl, rfl, gammaDom_one, ?_⟩
  rw [h]
  refine (decide_eq_true ?_).symm
  exact equLhs_zero _ (fun y => by ext <;> simp [ComT.pairing]) (fun y => by ext <;> simp [ComT.pairing]) _ _

theorem batchZero1 {u0 u1 : Com G1} {u' : List (Com G1)} (hu : crs.u = u0 :: u1 :: u') :
    Com1.batchScalarLinearMap [(0 : F)] crs = .ok [0] :=
  batchScalarLinearMap1_iff.mpr (.inr ⟨u1, by rw [hu]; rfl, by simp⟩)
theorem batchZero2 {v0 v1 : Com G2} {v' : List (Com G2)} (hv : crs.v = v0 :: v1 :: v') :
    Com2.batchScalarLinearMap [(0 : F)] crs = .ok [0] :=
  batchScalarLinearMap2_iff.mpr (.inr ⟨v1, by rw [hv]; rfl, by simp⟩)

theorem pairingSum_two {a b : Com G1} {c d : Com G2} :
    ComT.pairingSum e [a, b] [c, d] = .ok (ComT.pairL e a c + ComT.pairL e b d) :=
  (ComT.pairingSum_iff e).mpr ⟨rfl, by simp [ComT.pairL_apply]⟩

theorem pairing_head {a : Com G1} {c : Com G2} {l : List (Com G1)} {l' : List (Com G2)} :
    (do pure (ComT.pairing e (← idx (a :: l) 0) (← idx (c :: l') 0)) : Res _) = .ok (ComT.pairL e a c) := by
  simp only [bind_ok_iff, pure_eq_ok, Except.ok.injEq, idx_eq_ok]
  exact ⟨a, rfl, c, rfl, ComT.pairing_eq e a c⟩

theorem linearMapPPE_pair (Z : G1) (W : G2) :
    ComT.linearMapPPE (e Z W) = ComT.pairL e (⟨0, Z⟩ : Com G1) (⟨0, W⟩ : Com G2) := by
  ext <;> simp [ComT.linearMapPPE, ComT.pairL_apply, ComT.pairing]

theorem PPE.forge [Nontrivial G1] [Nontrivial G2] (he : PrimeGroups e) (hu : crs.u.length = 2) (hv : crs.v.length = 2)
    (h : ¬ (BindingGroup F crs.u ∧ BindingGroup F crs.v)) :
    ∃ (equ : PPE F G1 G2 GT) (cp : CProof F G1 G2), (∀ sch, equ.verify e sch cp crs = .ok true) ∧
      ∀ x y, ¬ equ.Holds e x y := by
  obtain ⟨u0, u1, hu⟩ := two_of_length hu
  obtain ⟨v0, v1, hv⟩ := two_of_length hv
  rw [not_and_or] at h
  have ne : ∀ (Z : G1) (W : G2), Z ≠ 0 → W ≠ 0 → e Z W ≠ 0 := fun Z W h1 h2 h3 =>
    (he.nondeg _ _ h3).elim h1 h2
  have z1 : Com1.batchLinearMap [(0 : G1)] = [0] := rfl
  have z2 : Com2.batchLinearMap [(0 : G2)] = [0] := rfl
  rcases h with h | h
  · rw [hu] at h
    obtain ⟨Z, r, hZ, hr⟩ := not_bindingGroup h
    obtain ⟨W, hW⟩ := exists_ne (0 : G2)
    refine ⟨zeroPPE (e Z W), forged [-r.1 • ⟨0, W⟩, -r.2 • ⟨0, W⟩] [0, 0] .PairingProduct, fun sch => ?_, fun x y hh => ?_⟩
    · refine (PPE.verify_iff e sch).mpr ⟨_, rfl, rfl, ?_⟩
      rw [hu, hv]
      refine verifyCore_zero (by rw [← z1]; rfl) (by rw [← z2]; rfl) rfl pairingSum_two pairingSum_two ?_
      change ComT.linearMapPPE (e Z W) + _ + _ = 0
      rw [linearMapPPE_pair, hr]
      simp only [map_smul, map_add, LinearMap.add_apply, LinearMap.smul_apply, map_zero, LinearMap.zero_apply]
      module
    · exact ne _ _ hZ hW (zeroPPE_holds.mp hh)
  · rw [hv] at h
    obtain ⟨W, r, hW, hr⟩ := not_bindingGroup h
    obtain ⟨Z, hZ⟩ := exists_ne (0 : G1)
    refine ⟨zeroPPE (e Z W), forged [0, 0] [-r.1 • ⟨0, Z⟩, -r.2 • ⟨0, Z⟩] .PairingProduct, fun sch => ?_, fun x y hh => ?_⟩
    · refine (PPE.verify_iff e sch).mpr ⟨_, rfl, rfl, ?_⟩
      rw [hu, hv]
      refine verifyCore_zero (by rw [← z1]; rfl) (by rw [← z2]; rfl) rfl pairingSum_two pairingSum_two ?_
      change ComT.linearMapPPE (e Z W) + _ + _ = 0
      rw [linearMapPPE_pair, hr]
      simp only [map_smul, map_add, LinearMap.add_apply, LinearMap.smul_apply, map_zero, LinearMap.zero_apply]
      module
    · exact ne _ _ hZ hW (zeroPPE_holds.mp hh)

theorem MSMEG1.forge [Nontrivial G1] (hu : crs.u.length = 2) (hv : crs.v.length = 2)
    (h : ¬ (BindingGroup F crs.u ∧ BindingScalar F crs.v crs.g2_gen)) :
    ∃ (equ : MSMEG1 F G1) (cp : CProof F G1 G2), (∀ sch, equ.verify e sch cp crs = .ok true) ∧
      ∀ x y, ¬ equ.Holds x y := by
  obtain ⟨u0, u1, hu⟩ := two_of_length hu
  obtain ⟨v0, v1, hv⟩ := two_of_length hv
  rw [not_and_or] at h
  have z1 : Com1.batchLinearMap [(0 : G1)] = [0] := rfl
  have ht : ∀ t : G1, ComT.linearMapMSMEG1 e t crs = .ok (ComT.pairL e ⟨0, t⟩ (v1 + ⟨0, crs.g2_gen⟩)) := fun t =>
    linearMapMSMEG1_iff.mpr ⟨v1, by rw [hv]; rfl, rfl⟩
  rcases h with h | h
  · rw [hu] at h
    obtain ⟨Z, r, hZ, hr⟩ := not_bindingGroup h
    refine ⟨zeroMSMEG1 Z, forged [-r.1 • (v1 + ⟨0, crs.g2_gen⟩), -r.2 • (v1 + ⟨0, crs.g2_gen⟩)] [0] .MultiScalarG1,
      fun sch => ?_, fun x y hh => hZ (zeroMSMEG1_holds.mp hh)⟩
    refine (MSMEG1.verify_iff e sch).mpr ⟨_, rfl, rfl, ?_⟩
    rw [hu]
    refine verifyCore_zero (by rw [← z1]; rfl) (batchZero2 hv) (ht Z) pairingSum_two (by rw [hv]; exact pairing_head) ?_
    rw [hr]
    simp only [map_smul, map_add, LinearMap.add_apply, LinearMap.smul_apply, map_zero, LinearMap.zero_apply]
    module
  · rw [hv] at h
    obtain ⟨s, hs⟩ := not_bindingScalar h
    obtain ⟨Z, hZ⟩ := exists_ne (0 : G1)
    refine ⟨zeroMSMEG1 Z, forged [0, 0] [-s • ⟨0, Z⟩] .MultiScalarG1,
      fun sch => ?_, fun x y hh => hZ (zeroMSMEG1_holds.mp hh)⟩
    refine (MSMEG1.verify_iff e sch).mpr ⟨_, rfl, rfl, ?_⟩
    rw [hu]
    refine verifyCore_zero (by rw [← z1]; rfl) (batchZero2 hv) (ht Z) pairingSum_two (by rw [hv]; exact pairing_head) ?_
    rw [hs]
    simp only [map_smul, LinearMap.smul_apply, map_zero]
    module

theorem MSMEG2.forge [Nontrivial G2] (hu : crs.u.length = 2) (hv : crs.v.length = 2)
    (h : ¬ (BindingScalar F crs.u crs.g1_gen ∧ BindingGroup F crs.v)) :
    ∃ (equ : MSMEG2 F G2) (cp : CProof F G1 G2), (∀ sch, equ.verify e sch cp crs = .ok true) ∧
      ∀ x y, ¬ equ.Holds x y := by
  obtain ⟨u0, u1, hu⟩ := two_of_length hu
  obtain ⟨v0, v1, hv⟩ := two_of_length hv
  rw [not_and_or] at h
  have z2 : Com2.batchLinearMap [(0 : G2)] = [0] := rfl
  have ht : ∀ t : G2, ComT.linearMapMSMEG2 e t crs = .ok (ComT.pairL e (u1 + ⟨0, crs.g1_gen⟩) ⟨0, t⟩) := fun t =>
    linearMapMSMEG2_iff.mpr ⟨u1, by rw [hu]; rfl, rfl⟩
  rcases h with h | h
  · rw [hu] at h
    obtain ⟨s, hs⟩ := not_bindingScalar h
    obtain ⟨W, hW⟩ := exists_ne (0 : G2)
    refine ⟨zeroMSMEG2 W, forged [-s • ⟨0, W⟩] [0, 0] .MultiScalarG2,
      fun sch => ?_, fun x y hh => hW (zeroMSMEG2_holds.mp hh)⟩
    refine (MSMEG2.verify_iff e sch).mpr ⟨_, rfl, rfl, ?_⟩
    rw [hv]
    refine verifyCore_zero (batchZero1 hu) (by rw [← z2]; rfl) (ht W) (by rw [hu]; exact pairing_head) pairingSum_two ?_
    rw [hs]
    simp only [map_smul, LinearMap.smul_apply, map_zero, LinearMap.zero_apply]
    module
  · rw [hv] at h
    obtain ⟨W, r, hW, hr⟩ := not_bindingGroup h
    refine ⟨zeroMSMEG2 W, forged [0] [-r.1 • (u1 + ⟨0, crs.g1_gen⟩), -r.2 • (u1 + ⟨0, crs.g1_gen⟩)] .MultiScalarG2,
      fun sch => ?_, fun x y hh => hW (zeroMSMEG2_holds.mp hh)⟩
    refine (MSMEG2.verify_iff e sch).mpr ⟨_, rfl, rfl, ?_⟩
    rw [hv]
    refine verifyCore_zero (batchZero1 hu) (by rw [← z2]; rfl) (ht W) (by rw [hu]; exact pairing_head) pairingSum_two ?_
    rw [hr]
    simp only [map_smul, map_add, LinearMap.add_apply, LinearMap.smul_apply, map_zero, LinearMap.zero_apply]
    module

theorem QuadEqu.forge (hu : 2 ≤ crs.u.length) (hv : 2 ≤ crs.v.length)
    (h : ¬ (BindingScalar F crs.u crs.g1_gen ∧ BindingScalar F crs.v crs.g2_gen)) :
    ∃ (equ : QuadEqu F) (cp : CProof F G1 G2), (∀ sch, equ.verify e sch cp crs = .ok true) ∧
      ∀ x y, ¬ equ.Holds x y := by
  obtain ⟨u0, u1, u', hu⟩ := two_le_length hu
  obtain ⟨v0, v1, v', hv⟩ := two_le_length hv
  rw [not_and_or] at h
  have ht : ComT.linearMapQuad e (1 : F) crs =
      .ok ((1 : F) • ComT.pairL e (u1 + ⟨0, crs.g1_gen⟩) (v1 + ⟨0, crs.g2_gen⟩)) :=
    linearMapQuad_iff.mpr ⟨u1, v1, by rw [hu]; rfl, by rw [hv]; rfl, rfl⟩
  rcases h with h | h
  · rw [hu] at h
    obtain ⟨s, hs⟩ := not_bindingScalar h
    refine ⟨zeroQuad 1, forged [-s • (v1 + ⟨0, crs.g2_gen⟩)] [0] .Quadratic,
      fun sch => ?_, fun x y hh => one_ne_zero (zeroQuad_holds.mp hh)⟩
    refine (QuadEqu.verify_iff e sch).mpr ⟨_, rfl, rfl, ?_⟩
    refine verifyCore_zero (batchZero1 hu) (batchZero2 hv) ht (by rw [hu]; exact pairing_head)
      (by rw [hv]; exact pairing_head) ?_
    rw [hs]
    simp only [map_smul, LinearMap.smul_apply, map_zero, LinearMap.zero_apply]
    module
  · rw [hv] at h
    obtain ⟨s, hs⟩ := not_bindingScalar h
    refine ⟨zeroQuad 1, forged [0] [-s • (u1 + ⟨0, crs.g1_gen⟩)] .Quadratic,
      fun sch => ?_, fun x y hh => one_ne_zero (zeroQuad_holds.mp hh)⟩
    refine (QuadEqu.verify_iff e sch).mpr ⟨_, rfl, rfl, ?_⟩
    refine verifyCore_zero (batchZero1 hu) (batchZero2 hv) ht (by rw [hu]; exact pairing_head)
      (by rw [hv]; exact pairing_head) ?_
    rw [hs]
    simp only [map_smul, LinearMap.smul_apply, map_zero]
    module

end GS
