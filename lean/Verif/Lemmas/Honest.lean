import Verif.Spec.Opening
import Verif.Lemmas.Prove
import Verif.Lemmas.Verify

/-! Running the verifier on the prover's output. -/

set_option linter.unusedSectionVars false
set_option linter.unusedVariables false

namespace GS
variable {F G1 G2 GT : Type} [Field F] [AddCommGroup G1] [Module F G1] [AddCommGroup G2] [Module F G2]
  [AddCommGroup GT] [Module F GT]

theorem verifyCore_honest [DecidableEq GT] (e : G1 →ₗ[F] G2 →ₗ[F] GT) (sch : Scheduler) {m n p q : Nat}
    (hm : 0 < m) (hn : 0 < n) (a x : _) (b y : _) (γ : Fin m → Fin n → F) (R : Fin m → Fin p → F)
    (S : Fin n → Fin q → F) (T : Fin q → Fin p → F) (u : Fin p → Com G1) (v : Fin q → Com G2)
    (t : ComT GT) :
    verifyCore e sch (matOf γ) (.ok (List.ofFn a)) (.ok (List.ofFn b))
      (List.ofFn fun i => x i + ∑ k, R i k • u k) (List.ofFn fun j => y j + ∑ l, S j l • v l) (.ok t)
      (.ok (∑ k, ComT.pairL e (u k) (piVal b y γ R S T v k)))
      (.ok (∑ l, ComT.pairL e (thetaVal a x γ S T u l) (v l))) =
    .ok (decide (equLhs (fun x y => ComT.pairing e x y) (List.ofFn a) (List.ofFn x) (List.ofFn b) (List.ofFn y)
      (matOf γ) = t)) := by
  rw [verifyCore_iff]
  refine ⟨_, _, _, _, _, rfl, rfl, rfl, rfl, rfl, by simp, by simp, ?_, ?_⟩
  · simp only [List.length_ofFn]
    refine .inr ⟨hm, hn, by simp, ?_, ?_⟩
    · intro r hr
      have := (rect_matOf γ).2 r (List.mem_of_mem_head? hr)
      exact this
    · intro r hr; exact ((rect_matOf γ).2 r hr).ge
  · refine decide_eq_decide.mpr ?_
    rw [equLhs_ofFn, equLhs_ofFn]
    have := gs_identity (ComT.pairL e) a x b y γ R S T u v _ _ (fun _ => rfl) (fun _ => rfl)
    simp only [map_sum, map_smul] at this ⊢
    simp only [ComT.pairL_apply] at this ⊢
    rw [this, add_left_inj, add_left_inj]

theorem opensGroup_ofFn {G : Type} [AddCommGroup G] [Module F G] {u : List (Com G)} {c : Commit F G} {m : Nat}
    {x : Fin m → G} : c.OpensGroup u (List.ofFn x) ↔ ∃ u0 u1 u', u = u0 :: u1 :: u' ∧
      ∃ R : Fin m → Fin 2 → F, c.rand = matOf R ∧
        c.coms = List.ofFn fun i => (⟨0, x i⟩ : Com G) + ∑ k, R i k • (![u0, u1] k) := by
  unfold Commit.OpensGroup
  refine exists_congr fun u0 => exists_congr fun u1 => exists_congr fun u' => and_congr_right fun _ => ?_
  constructor
  · rintro ⟨R, hR, hr, hc⟩
    rw [List.length_ofFn] at hR
    obtain ⟨R, rfl⟩ := exists_ofFn R hR
    refine ⟨_, hr.trans (map_pair_ofFn R), ?_⟩
    rw [hc, zipWith_ofFn]
    simp [groupCom, Fin.sum_univ_two, add_assoc]
  · rintro ⟨R, hr, hc⟩
    refine ⟨List.ofFn fun i => (R i 0, R i 1), by simp, ?_, ?_⟩
    · rw [hr, map_pair_ofFn, matOf_inj]; funext i k; fin_cases k <;> simp
    · rw [hc, zipWith_ofFn]
      simp [groupCom, Fin.sum_univ_two, add_assoc]

theorem opensScalar_ofFn {G : Type} [AddCommGroup G] [Module F G] {u : List (Com G)} {g : G} {c : Commit F G} {m : Nat}
    {x : Fin m → F} : c.OpensScalar u g (List.ofFn x) ↔ ∃ u0 u1 u', u = u0 :: u1 :: u' ∧
      ∃ R : Fin m → Fin 1 → F, c.rand = matOf R ∧
        c.coms = List.ofFn fun i => x i • (u1 + (⟨0, g⟩ : Com G)) + ∑ k, R i k • (![u0] k) := by
  unfold Commit.OpensScalar
  refine exists_congr fun u0 => exists_congr fun u1 => exists_congr fun u' => and_congr_right fun _ => ?_
  constructor
  · rintro ⟨R, hR, hr, hc⟩
    rw [List.length_ofFn] at hR
    obtain ⟨R, rfl⟩ := exists_ofFn R hR
    refine ⟨fun i _ => R i, ?_, ?_⟩
    · rw [hr]; simp [matOf, List.map_ofFn, Function.comp_def]
    · rw [hc, zipWith_ofFn]
      simp [scalarCom]
  · rintro ⟨R, hr, hc⟩
    refine ⟨List.ofFn fun i => R i 0, by simp, ?_, ?_⟩
    · rw [hr]; simp [matOf, List.map_ofFn, Function.comp_def]
    · rw [hc, zipWith_ofFn]
      simp [scalarCom]

theorem matOf22 (a b c d : F) : ([[a, b], [c, d]] : Matrix F) = matOf ![![a, b], ![c, d]] := by
  simp [matOf, List.ofFn_succ]
theorem matOf12 (a b : F) : ([[a, b]] : Matrix F) = matOf ![![a, b]] := by
  simp [matOf, List.ofFn_succ]
theorem matOf21 (a b : F) : ([[a], [b]] : Matrix F) = matOf ![![a], ![b]] := by
  simp [matOf, List.ofFn_succ]
theorem matOf11 (a : F) : ([[a]] : Matrix F) = matOf ![![a]] := by
  simp [matOf, List.ofFn_succ]
theorem ofFn2 {α : Type} (a b : α) : [a, b] = List.ofFn ![a, b] := by simp [List.ofFn_succ]
theorem ofFn1 {α : Type} (a : α) : [a] = List.ofFn ![a] := by simp [List.ofFn_succ]
theorem col1 {α : Type} (a : α) : [[a]] = vecToColVec (List.ofFn ![a]) := by simp [vecToColVec, List.ofFn_succ]

/-! ### Target maps as linear maps -/

/-- `linear_map_PPE` as a linear map. -/
def tPPE : GT →ₗ[F] ComT GT where
  toFun := ComT.linearMapPPE
  map_add' x y := by ext <;> simp [ComT.linearMapPPE]
  map_smul' r x := by ext <;> simp [ComT.linearMapPPE]

/-- `linear_map_MSMEG1` as a linear map; `w` is the second key element plus `(O, g2)`. -/
def tMSMEG1 (e : G1 →ₗ[F] G2 →ₗ[F] GT) (w : Com G2) : G1 →ₗ[F] ComT GT :=
  ((ComT.pairL e).flip w).comp i1

/-- `linear_map_MSMEG2` as a linear map. -/
def tMSMEG2 (e : G1 →ₗ[F] G2 →ₗ[F] GT) (w : Com G1) : G2 →ₗ[F] ComT GT :=
  (ComT.pairL e w).comp i2

/-- `linear_map_quad` as a linear map. -/
def tQuad (e : G1 →ₗ[F] G2 →ₗ[F] GT) (w1 : Com G1) (w2 : Com G2) : F →ₗ[F] ComT GT :=
  LinearMap.toSpanSingleton F _ (ComT.pairL e w1 w2)

theorem linearMapMSMEG1_iff {e : G1 →ₗ[F] G2 →ₗ[F] GT} {z : G1} {key : CRS G1 G2 GT} {t : ComT GT} :
    ComT.linearMapMSMEG1 e z key = .ok t ↔
      ∃ w, key.v[1]? = some w ∧ t = tMSMEG1 e (w + Com2.linearMap key.g2_gen) z := by
  simp only [ComT.linearMapMSMEG1, bind_ok_iff, scalarLinearMap2_iff, pure_eq_ok, Except.ok.injEq, one_smul]
  constructor
  · rintro ⟨_, ⟨w, hw, rfl⟩, rfl⟩; exact ⟨w, hw, rfl⟩
  · rintro ⟨w, hw, rfl⟩; exact ⟨_, ⟨w, hw, rfl⟩, rfl⟩

theorem linearMapMSMEG2_iff {e : G1 →ₗ[F] G2 →ₗ[F] GT} {z : G2} {key : CRS G1 G2 GT} {t : ComT GT} :
    ComT.linearMapMSMEG2 e z key = .ok t ↔
      ∃ w, key.u[1]? = some w ∧ t = tMSMEG2 e (w + Com1.linearMap key.g1_gen) z := by
  simp only [ComT.linearMapMSMEG2, bind_ok_iff, scalarLinearMap1_iff, pure_eq_ok, Except.ok.injEq, one_smul]
  constructor
  · rintro ⟨_, ⟨w, hw, rfl⟩, rfl⟩; exact ⟨w, hw, rfl⟩
  · rintro ⟨w, hw, rfl⟩; exact ⟨_, ⟨w, hw, rfl⟩, rfl⟩

theorem linearMapQuad_iff {e : G1 →ₗ[F] G2 →ₗ[F] GT} {z : F} {key : CRS G1 G2 GT} {t : ComT GT} :
    ComT.linearMapQuad e z key = .ok t ↔
      ∃ w1 w2, key.u[1]? = some w1 ∧ key.v[1]? = some w2 ∧
        t = tQuad e (w1 + Com1.linearMap key.g1_gen) (w2 + Com2.linearMap key.g2_gen) z := by
  simp only [ComT.linearMapQuad, bind_ok_iff, scalarLinearMap1_iff, scalarLinearMap2_iff, pure_eq_ok,
    Except.ok.injEq, one_smul, Com.scalarMul_eq, ComT.pairing_eq, map_smul]
  constructor
  · rintro ⟨_, ⟨w, hw, rfl⟩, _, ⟨w', hw', rfl⟩, rfl⟩; exact ⟨w, w', hw, hw', rfl⟩
  · rintro ⟨w, w', hw, hw', rfl⟩; exact ⟨_, ⟨w, hw, rfl⟩, _, ⟨w', hw', rfl⟩, rfl⟩

/-! ### The four types -/

section
variable {ρ : Type} [Rng ρ F G1 G2] [DecidableEq GT]

/-- What an honest prover/verifier pair achieves: the prover returns, and the verifier returns the
truth value of `P` on every proof carrying the same commitment values. -/
def HonestRun (prove : Res (EquProof F G1 G2 × ρ)) (verify : Scheduler → CProof F G1 G2 → Res Bool)
    (ty : EquType) (np nt : Nat) (cs : List (Com G1)) (ds : List (Com G2)) (P : Prop) : Prop :=
  ∃ pf rng', prove = .ok (pf, rng') ∧ pf.equ_type = ty ∧ pf.pi.length = np ∧ pf.theta.length = nt ∧
    ∀ sch (cp : CProof F G1 G2), cp.xcoms.coms = cs → cp.ycoms.coms = ds → cp.equ_proofs = [pf] →
      ∃ b, verify sch cp = .ok b ∧ (b = true ↔ P)

theorem PPE.honest (e : G1 →ₗ[F] G2 →ₗ[F] GT) (sch : Nat → Scheduler) (self : PPE F G1 G2 GT)
    (x : List G1) (y : List G2) (xc : Commit F G1) (yc : Commit F G2) (crs : CRS G1 G2 GT) (rng : ρ)
    (hx : x ≠ []) (hy : y ≠ []) (hd : self.Dims x.length y.length)
    (hu : crs.u.length = 2) (hv : crs.v.length = 2)
    (hxc : xc.OpensGroup crs.u x) (hyc : yc.OpensGroup crs.v y) :
    HonestRun (self.prove sch x y xc yc crs rng) (fun s cp => self.verify e s cp crs) .PairingProduct 2 2
      xc.coms yc.coms (self.Holds e x y) := by
  have hm := List.length_pos_iff.mpr hx
  have hn := List.length_pos_iff.mpr hy
  obtain ⟨m, hxm⟩ : ∃ m, x.length = m := ⟨_, rfl⟩
  obtain ⟨n, hyn⟩ : ∃ n, y.length = n := ⟨_, rfl⟩
  rw [hxm] at hm hd
  rw [hyn] at hn hd
  obtain ⟨a, ha⟩ := exists_ofFn self.a_consts hd.a
  obtain ⟨b, hb⟩ := exists_ofFn self.b_consts hd.b
  obtain ⟨γ, hγ⟩ := rect_iff.mp (⟨hd.rows, hd.cols⟩ : Rect _ _ self.gamma)
  obtain ⟨x', hx'⟩ := exists_ofFn x hxm
  obtain ⟨y', hy'⟩ := exists_ofFn y hyn
  rw [hx'] at hxc
  rw [hy'] at hyc
  obtain ⟨u0, u1, u', hu', R, hR, hcx⟩ := opensGroup_ofFn.mp hxc
  obtain ⟨v0, v1, v', hv', S, hS, hcy⟩ := opensGroup_ofFn.mp hyc
  have : u' = [] := by rw [hu'] at hu; simpa using hu
  subst this
  have : v' = [] := by rw [hv'] at hv; simpa using hv
  subst this
  rw [HonestRun, PPE.prove_eq, hR, hS, hγ, ha, hb, matOf22, hu', hv', ofFn2 u0, ofFn2 v0]
  have e1 : Com1.batchLinearMap x = List.ofFn (fun i => i1 (F := F) (x' i)) := by
    rw [hx', batchLinearMap1_ofFn (F := F)]
  have e2 : Com2.batchLinearMap y = List.ofFn (fun i => i2 (F := F) (y' i)) := by
    rw [hy', batchLinearMap2_ofFn (F := F)]
  rw [batchLinearMap1_ofFn (F := F), batchLinearMap2_ofFn (F := F), e1, e2, hxm, hyn,
    proveCore_matOf sch .PairingProduct hm hn (by decide) (by decide)]
  refine ⟨_, _, rfl, rfl, by simp, by simp, fun s cp hcp1 hcp2 hcp3 => ?_⟩
  refine ⟨decide (equLhs (fun x y => ComT.pairing e x y) (List.ofFn fun i => i1 (F := F) (a i))
      (List.ofFn fun i => i1 (F := F) (x' i)) (List.ofFn fun i => i2 (F := F) (b i))
      (List.ofFn fun i => i2 (F := F) (y' i)) (matOf γ) = ComT.linearMapPPE self.target), (PPE.verify_iff e s).mpr ⟨_, hcp3, rfl, ?_⟩, ?_⟩
  · rw [hγ, ha, hb, hcp1, hcp2, hcx, hcy, batchLinearMap1_ofFn (F := F), batchLinearMap2_ofFn (F := F), hu', hv',
      ofFn2 u0, ofFn2 v0, ComT.pairingSum_ofFn, ComT.pairingSum_ofFn]
    exact verifyCore_honest e s hm hn _ (fun i => i1 (F := F) (x' i)) _ (fun i => i2 (F := F) (y' i)) γ R S _ _ _ _
  · rw [decide_eq_true_iff, PPE.Holds, ha, hb, hx', hy', hγ]
    have := equLhs_map (F := F) (fun x y => e x y) (fun x y => ComT.pairing e x y) (i1 (F := F)) (i2 (F := F)) tPPE
      (fun x y => by ext <;> simp [tPPE, i1_apply, i2_apply, ComT.linearMapPPE, ComT.pairing])
      (List.ofFn a) (List.ofFn x') (List.ofFn b) (List.ofFn y') (matOf γ)
    simp only [List.map_ofFn, Function.comp_def] at this
    rw [← this]
    change ComT.linearMapPPE _ = ComT.linearMapPPE _ ↔ _
    simp [ComT.linearMapPPE, ComT.ext_iff]

theorem MSMEG1.honest (e : G1 →ₗ[F] G2 →ₗ[F] GT) (sch : Nat → Scheduler) (self : MSMEG1 F G1)
    (x : List G1) (y : List F) (xc : Commit F G1) (yc : Commit F G2) (crs : CRS G1 G2 GT) (rng : ρ)
    (hx : x ≠ []) (hy : y ≠ []) (hd : self.Dims x.length y.length)
    (hu : crs.u.length = 2) {v0 v1 : Com G2} {v' : List (Com G2)} (hv : crs.v = v0 :: v1 :: v')
    (hxc : xc.OpensGroup crs.u x) (hyc : yc.OpensScalar crs.v crs.g2_gen y) :
    HonestRun (self.prove sch x y xc yc crs rng) (fun s cp => self.verify e s cp crs) .MultiScalarG1 2 1
      xc.coms yc.coms (tMSMEG1 e (v1 + ⟨0, crs.g2_gen⟩)
        (equLhs (fun (x : G1) (y : F) => y • x) self.a_consts x self.b_consts y self.gamma) =
          tMSMEG1 e (v1 + ⟨0, crs.g2_gen⟩) self.target) := by
  have hm := List.length_pos_iff.mpr hx
  have hn := List.length_pos_iff.mpr hy
  obtain ⟨m, hxm⟩ : ∃ m, x.length = m := ⟨_, rfl⟩
  obtain ⟨n, hyn⟩ : ∃ n, y.length = n := ⟨_, rfl⟩
  rw [hxm] at hm hd
  rw [hyn] at hn hd
  obtain ⟨a, ha⟩ := exists_ofFn self.a_consts hd.a
  obtain ⟨b, hb⟩ := exists_ofFn self.b_consts hd.b
  obtain ⟨γ, hγ⟩ := rect_iff.mp (⟨hd.rows, hd.cols⟩ : Rect _ _ self.gamma)
  obtain ⟨x', hx'⟩ := exists_ofFn x hxm
  obtain ⟨y', hy'⟩ := exists_ofFn y hyn
  rw [hx'] at hxc
  rw [hy'] at hyc
  obtain ⟨u0, u1, u', hu', R, hR, hcx⟩ := opensGroup_ofFn.mp hxc
  obtain ⟨v0', v1', v'', hv', S, hS, hcy⟩ := opensScalar_ofFn.mp hyc
  have : u' = [] := by rw [hu'] at hu; simpa using hu
  subst this
  rw [hv] at hv'; cases hv'
  have hv1 : crs.v[1]? = some v1 := by rw [hv]; rfl
  have hv0 : idx crs.v 0 = .ok v0 := by rw [hv]; rfl
  rw [HonestRun, MSMEG1.prove_eq, hR, hS, hγ, ha, hb, matOf12, hu', ofFn2 u0, hv0, ok_bind, pure_eq_ok, col1 v0]
  have e1 : Com1.batchLinearMap x = List.ofFn (fun i => i1 (F := F) (x' i)) := by
    rw [hx', batchLinearMap1_ofFn (F := F)]
  have e2 : Com2.batchScalarLinearMap y crs = .ok (List.ofFn fun i => y' i • (v1 + Com2.linearMap crs.g2_gen)) := by
    rw [hy', batchScalarLinearMap2_ofFn _ hv1]
  rw [batchLinearMap1_ofFn (F := F), batchScalarLinearMap2_ofFn _ hv1, e1, e2, hxm, hyn,
    proveCore_matOf sch .MultiScalarG1 hm hn (by decide) (by decide)]
  refine ⟨_, _, rfl, rfl, by simp, by simp, fun s cp hcp1 hcp2 hcp3 => ?_⟩
  refine ⟨decide (equLhs (fun x y => ComT.pairing e x y) (List.ofFn fun i => i1 (F := F) (a i))
      (List.ofFn fun i => i1 (F := F) (x' i)) (List.ofFn fun i => b i • (v1 + Com2.linearMap crs.g2_gen))
      (List.ofFn fun i => y' i • (v1 + Com2.linearMap crs.g2_gen)) (matOf γ) =
      tMSMEG1 e (v1 + Com2.linearMap crs.g2_gen) self.target), (MSMEG1.verify_iff e s).mpr ⟨_, hcp3, rfl, ?_⟩, ?_⟩
  · rw [hγ, ha, hb, hcp1, hcp2, hcx, hcy, batchLinearMap1_ofFn (F := F), batchScalarLinearMap2_ofFn _ hv1, hu',
      ofFn2 u0, ComT.pairingSum_ofFn, hv0, linearMapMSMEG1_iff.mpr ⟨v1, hv1, rfl⟩,
      idx_ofFn_lt _ (by decide : 0 < 1)]
    have := verifyCore_honest e s hm hn (fun i => i1 (F := F) (a i)) (fun i => i1 (F := F) (x' i))
      (fun i => b i • (v1 + Com2.linearMap crs.g2_gen)) (fun i => y' i • (v1 + Com2.linearMap crs.g2_gen)) γ R S
      ![![(d1 F G1 G2 rng).1, (d1 F G1 G2 (d1 F G1 G2 rng).2).1]] ![u0, u1] ![v0]
      (tMSMEG1 e (v1 + Com2.linearMap crs.g2_gen) self.target)
    rw [Fin.sum_univ_one (fun l => ComT.pairL e _ (![v0] l))] at this
    exact this
  · rw [decide_eq_true_iff, hx', hy']
    have := equLhs_map (F := F) (fun (x : G1) (y : F) => y • x) (fun x y => ComT.pairing e x y) (i1 (F := F))
      (fun y => y • (v1 + Com2.linearMap crs.g2_gen)) (tMSMEG1 e (v1 + Com2.linearMap crs.g2_gen))
      (fun x y => by rw [ComT.pairing_eq, map_smul, map_smul]; rfl)
      (List.ofFn a) (List.ofFn x') (List.ofFn b) (List.ofFn y') (matOf γ)
    simp only [List.map_ofFn, Function.comp_def] at this
    rw [← this]
    rfl

theorem MSMEG2.honest (e : G1 →ₗ[F] G2 →ₗ[F] GT) (sch : Nat → Scheduler) (self : MSMEG2 F G2)
    (x : List F) (y : List G2) (xc : Commit F G1) (yc : Commit F G2) (crs : CRS G1 G2 GT) (rng : ρ)
    (hx : x ≠ []) (hy : y ≠ []) (hd : self.Dims x.length y.length)
    {u0 u1 : Com G1} {u' : List (Com G1)} (hu : crs.u = u0 :: u1 :: u') (hv : crs.v.length = 2)
    (hxc : xc.OpensScalar crs.u crs.g1_gen x) (hyc : yc.OpensGroup crs.v y) :
    HonestRun (self.prove sch x y xc yc crs rng) (fun s cp => self.verify e s cp crs) .MultiScalarG2 1 2
      xc.coms yc.coms (tMSMEG2 e (u1 + ⟨0, crs.g1_gen⟩)
        (equLhs (fun (x : F) (y : G2) => x • y) self.a_consts x self.b_consts y self.gamma) =
          tMSMEG2 e (u1 + ⟨0, crs.g1_gen⟩) self.target) := by
  have hm := List.length_pos_iff.mpr hx
  have hn := List.length_pos_iff.mpr hy
  obtain ⟨m, hxm⟩ : ∃ m, x.length = m := ⟨_, rfl⟩
  obtain ⟨n, hyn⟩ : ∃ n, y.length = n := ⟨_, rfl⟩
  rw [hxm] at hm hd
  rw [hyn] at hn hd
  obtain ⟨a, ha⟩ := exists_ofFn self.a_consts hd.a
  obtain ⟨b, hb⟩ := exists_ofFn self.b_consts hd.b
  obtain ⟨γ, hγ⟩ := rect_iff.mp (⟨hd.rows, hd.cols⟩ : Rect _ _ self.gamma)
  obtain ⟨x', hx'⟩ := exists_ofFn x hxm
  obtain ⟨y', hy'⟩ := exists_ofFn y hyn
  rw [hx'] at hxc
  rw [hy'] at hyc
  obtain ⟨u0', u1', u'', hu', R, hR, hcx⟩ := opensScalar_ofFn.mp hxc
  obtain ⟨v0, v1, v', hv', S, hS, hcy⟩ := opensGroup_ofFn.mp hyc
  have : v' = [] := by rw [hv'] at hv; simpa using hv
  subst this
  rw [hu] at hu'; cases hu'
  have hu1 : crs.u[1]? = some u1 := by rw [hu]; rfl
  have hu0 : idx crs.u 0 = .ok u0 := by rw [hu]; rfl
  rw [HonestRun, MSMEG2.prove_eq, hR, hS, hγ, ha, hb, matOf21, hv', ofFn2 v0, hu0, ok_bind, pure_eq_ok, col1 u0]
  have e1 : Com2.batchLinearMap y = List.ofFn (fun i => i2 (F := F) (y' i)) := by
    rw [hy', batchLinearMap2_ofFn (F := F)]
  have e2 : Com1.batchScalarLinearMap x crs = .ok (List.ofFn fun i => x' i • (u1 + Com1.linearMap crs.g1_gen)) := by
    rw [hx', batchScalarLinearMap1_ofFn _ hu1]
  rw [batchLinearMap2_ofFn (F := F), batchScalarLinearMap1_ofFn _ hu1, e1, e2, hxm, hyn,
    proveCore_matOf sch .MultiScalarG2 hm hn (by decide) (by decide)]
  refine ⟨_, _, rfl, rfl, by simp, by simp, fun s cp hcp1 hcp2 hcp3 => ?_⟩
  refine ⟨decide (equLhs (fun x y => ComT.pairing e x y) (List.ofFn fun i => a i • (u1 + Com1.linearMap crs.g1_gen))
      (List.ofFn fun i => x' i • (u1 + Com1.linearMap crs.g1_gen)) (List.ofFn fun i => i2 (F := F) (b i))
      (List.ofFn fun i => i2 (F := F) (y' i)) (matOf γ) =
      tMSMEG2 e (u1 + Com1.linearMap crs.g1_gen) self.target), (MSMEG2.verify_iff e s).mpr ⟨_, hcp3, rfl, ?_⟩, ?_⟩
  · rw [hγ, ha, hb, hcp1, hcp2, hcx, hcy, batchLinearMap2_ofFn (F := F), batchScalarLinearMap1_ofFn _ hu1, hv',
      ofFn2 v0, ComT.pairingSum_ofFn, hu0, linearMapMSMEG2_iff.mpr ⟨u1, hu1, rfl⟩,
      idx_ofFn_lt _ (by decide : 0 < 1)]
    have := verifyCore_honest e s hm hn (fun i => a i • (u1 + Com1.linearMap crs.g1_gen))
      (fun i => x' i • (u1 + Com1.linearMap crs.g1_gen))
      (fun i => i2 (F := F) (b i)) (fun i => i2 (F := F) (y' i)) γ R S
      ![![(d1 F G1 G2 rng).1], ![(d1 F G1 G2 (d1 F G1 G2 rng).2).1]] ![u0] ![v0, v1]
      (tMSMEG2 e (u1 + Com1.linearMap crs.g1_gen) self.target)
    rw [Fin.sum_univ_one (fun l => ComT.pairL e (![u0] l) _)] at this
    exact this
  · rw [decide_eq_true_iff, hx', hy']
    have := equLhs_map (F := F) (fun (x : F) (y : G2) => x • y) (fun x y => ComT.pairing e x y)
      (fun y => y • (u1 + Com1.linearMap crs.g1_gen)) (i2 (F := F)) (tMSMEG2 e (u1 + Com1.linearMap crs.g1_gen))
      (fun x y => by rw [ComT.pairing_eq, map_smul, map_smul]; rfl)
      (List.ofFn a) (List.ofFn x') (List.ofFn b) (List.ofFn y') (matOf γ)
    simp only [List.map_ofFn, Function.comp_def] at this
    rw [← this]
    rfl

theorem QuadEqu.honest (e : G1 →ₗ[F] G2 →ₗ[F] GT) (sch : Nat → Scheduler) (self : QuadEqu F)
    (x y : List F) (xc : Commit F G1) (yc : Commit F G2) (crs : CRS G1 G2 GT) (rng : ρ)
    (hx : x ≠ []) (hy : y ≠ []) (hd : self.Dims x.length y.length)
    {u0 u1 : Com G1} {u' : List (Com G1)} (hu : crs.u = u0 :: u1 :: u')
    {v0 v1 : Com G2} {v' : List (Com G2)} (hv : crs.v = v0 :: v1 :: v')
    (hxc : xc.OpensScalar crs.u crs.g1_gen x) (hyc : yc.OpensScalar crs.v crs.g2_gen y) :
    HonestRun (self.prove sch x y xc yc crs rng) (fun s cp => self.verify e s cp crs) .Quadratic 1 1
      xc.coms yc.coms (tQuad e (u1 + ⟨0, crs.g1_gen⟩) (v1 + ⟨0, crs.g2_gen⟩)
        (equLhs (fun x y : F => x * y) self.a_consts x self.b_consts y self.gamma) =
          tQuad e (u1 + ⟨0, crs.g1_gen⟩) (v1 + ⟨0, crs.g2_gen⟩) self.target) := by
  have hm := List.length_pos_iff.mpr hx
  have hn := List.length_pos_iff.mpr hy
  obtain ⟨m, hxm⟩ : ∃ m, x.length = m := ⟨_, rfl⟩
  obtain ⟨n, hyn⟩ : ∃ n, y.length = n := ⟨_, rfl⟩
  rw [hxm] at hm hd
  rw [hyn] at hn hd
  obtain ⟨a, ha⟩ := exists_ofFn self.a_consts hd.a
  obtain ⟨b, hb⟩ := exists_ofFn self.b_consts hd.b
  obtain ⟨γ, hγ⟩ := rect_iff.mp (⟨hd.rows, hd.cols⟩ : Rect _ _ self.gamma)
  obtain ⟨x', hx'⟩ := exists_ofFn x hxm
  obtain ⟨y', hy'⟩ := exists_ofFn y hyn
  rw [hx'] at hxc
  rw [hy'] at hyc
  obtain ⟨u0', u1', u'', hu', R, hR, hcx⟩ := opensScalar_ofFn.mp hxc
  obtain ⟨v0', v1', v'', hv', S, hS, hcy⟩ := opensScalar_ofFn.mp hyc
  rw [hu] at hu'; cases hu'
  rw [hv] at hv'; cases hv'
  have hu1 : crs.u[1]? = some u1 := by rw [hu]; rfl
  have hu0 : idx crs.u 0 = .ok u0 := by rw [hu]; rfl
  have hv1 : crs.v[1]? = some v1 := by rw [hv]; rfl
  have hv0 : idx crs.v 0 = .ok v0 := by rw [hv]; rfl
  rw [HonestRun, QuadEqu.prove_eq, hR, hS, hγ, ha, hb, matOf11, hu0, hv0, ok_bind, ok_bind, pure_eq_ok, pure_eq_ok,
    col1 u0, col1 v0]
  have e1 : Com2.batchScalarLinearMap y crs = .ok (List.ofFn fun i => y' i • (v1 + Com2.linearMap crs.g2_gen)) := by
    rw [hy', batchScalarLinearMap2_ofFn _ hv1]
  have e2 : Com1.batchScalarLinearMap x crs = .ok (List.ofFn fun i => x' i • (u1 + Com1.linearMap crs.g1_gen)) := by
    rw [hx', batchScalarLinearMap1_ofFn _ hu1]
  rw [batchScalarLinearMap2_ofFn _ hv1, batchScalarLinearMap1_ofFn _ hu1, e1, e2, hxm, hyn,
    proveCore_matOf sch .Quadratic hm hn (by decide) (by decide)]
  refine ⟨_, _, rfl, rfl, by simp, by simp, fun s cp hcp1 hcp2 hcp3 => ?_⟩
  refine ⟨decide (equLhs (fun x y => ComT.pairing e x y) (List.ofFn fun i => a i • (u1 + Com1.linearMap crs.g1_gen))
      (List.ofFn fun i => x' i • (u1 + Com1.linearMap crs.g1_gen))
      (List.ofFn fun i => b i • (v1 + Com2.linearMap crs.g2_gen))
      (List.ofFn fun i => y' i • (v1 + Com2.linearMap crs.g2_gen)) (matOf γ) =
      tQuad e (u1 + Com1.linearMap crs.g1_gen) (v1 + Com2.linearMap crs.g2_gen) self.target), (QuadEqu.verify_iff e s).mpr ⟨_, hcp3, rfl, ?_⟩, ?_⟩
  · rw [hγ, ha, hb, hcp1, hcp2, hcx, hcy, batchScalarLinearMap2_ofFn _ hv1, batchScalarLinearMap1_ofFn _ hu1,
      hu0, hv0, linearMapQuad_iff.mpr ⟨u1, v1, hu1, hv1, rfl⟩,
      idx_ofFn_lt _ (by decide : 0 < 1), idx_ofFn_lt _ (by decide : 0 < 1)]
    have := verifyCore_honest e s hm hn (fun i => a i • (u1 + Com1.linearMap crs.g1_gen))
      (fun i => x' i • (u1 + Com1.linearMap crs.g1_gen))
      (fun i => b i • (v1 + Com2.linearMap crs.g2_gen)) (fun i => y' i • (v1 + Com2.linearMap crs.g2_gen)) γ R S
      ![![(d1 F G1 G2 rng).1]] ![u0] ![v0]
      (tQuad e (u1 + Com1.linearMap crs.g1_gen) (v1 + Com2.linearMap crs.g2_gen) self.target)
    rw [Fin.sum_univ_one (fun l => ComT.pairL e (![u0] l) _), Fin.sum_univ_one (fun l => ComT.pairL e _ (![v0] l))] at this
    exact this
  · rw [decide_eq_true_iff, hx', hy']
    have := equLhs_map (F := F) (fun x y : F => x * y) (fun x y => ComT.pairing e x y)
      (fun y => y • (u1 + Com1.linearMap crs.g1_gen)) (fun y => y • (v1 + Com2.linearMap crs.g2_gen))
      (tQuad e (u1 + Com1.linearMap crs.g1_gen) (v1 + Com2.linearMap crs.g2_gen))
      (fun x y => by rw [ComT.pairing_eq, map_smul, map_smul, LinearMap.smul_apply, smul_comm, smul_smul]; rfl)
      (List.ofFn a) (List.ofFn x') (List.ofFn b) (List.ofFn y') (matOf γ)
    simp only [List.map_ofFn, Function.comp_def] at this
    rw [← this]
    rfl

end
end GS
