import Verif.Spec.Mismatch
import Verif.Lemmas.Replay
import Verif.Lemmas.Cap

/-! Running the prover on other values than those committed to. -/

set_option linter.unusedSectionVars false
set_option linter.unusedVariables false

open scoped BigOperators

namespace GS
variable {F G1 G2 GT : Type} [Field F] [AddCommGroup G1] [Module F G1] [AddCommGroup G2] [Module F G2]
  [AddCommGroup GT] [Module F GT]

section
variable {A B C : Type} [AddCommGroup A] [Module F A] [AddCommGroup B] [Module F B] [AddCommGroup C] [Module F C] {m n p q : Nat}

theorem crossSum_ofFn (f : A → B → C) (x : Fin m → A) (y : Fin n → B) (γ : Fin m → Fin n → F) :
    crossSum f (List.ofFn x) (List.ofFn y) (matOf γ) = ∑ i, ∑ j, γ i j • f (x i) (y j) := by
  simp only [crossSum, matOf, zipWith_ofFn, List.sum_ofFn]

theorem diffs_ofFn (x x' : Fin m → A) : diffs (List.ofFn x) (List.ofFn x') = List.ofFn (x - x') := by
  simp only [diffs, zipWith_ofFn]; rfl

theorem embG_ofFn (x : Fin m → A) : embG (List.ofFn x) = List.ofFn fun i => (⟨0, x i⟩ : Com A) := by
  simp only [embG, List.map_ofFn]; rfl

theorem embS_ofFn (w : Com A) (x : Fin m → F) : embS w (List.ofFn x) = List.ofFn fun i => x i • w := by
  simp only [embS, List.map_ofFn]; rfl

theorem sameLeft_ofFn {γ : Fin m → Fin n → F} {x x' : Fin m → A} :
    SameLeft (matOf γ) (List.ofFn x) (List.ofFn x') ↔ ∀ j, ∑ i, γ i j • (x i - x' i) = 0 := by
  simp only [SameLeft, matOf, zipWith_ofFn, List.sum_ofFn, smul_sub, Finset.sum_sub_distrib, sub_eq_zero]
  constructor
  · intro h j
    have := h j
    simpa [List.getD_eq_getElem?_getD] using this
  · intro h j
    by_cases hj : j < n
    · have := h ⟨j, hj⟩
      simpa [List.getD_eq_getElem?_getD, hj] using this
    · simp [List.getD_eq_getElem?_getD, hj]

theorem sameRight_ofFn {γ : Fin m → Fin n → F} {y y' : Fin n → B} :
    SameRight (matOf γ) (List.ofFn y) (List.ofFn y') ↔ ∀ i, ∑ j, γ i j • (y j - y' j) = 0 := by
  simp [SameRight, matOf, zipWith_ofFn, List.sum_ofFn, smul_sub, Finset.sum_sub_distrib, sub_eq_zero]

/-- The prover's values with other values of the right variables. -/
theorem piVal_other (b : Fin m → B) (y y' : Fin n → B) (γ : Fin m → Fin n → F) (R : Fin m → Fin p → F)
    (S : Fin n → Fin q → F) (T : Fin q → Fin p → F) (v : Fin q → B) (k : Fin p) :
    piVal b y' γ R S T v k = piVal b y γ R S T v k - ∑ i, R i k • ∑ j, γ i j • (y j - y' j) := by
  have h : ∀ z : Fin n → B, ∑ j, (∑ i, R i k * γ i j) • z j = ∑ i, R i k • ∑ j, γ i j • z j := by
    intro z
    simp only [Finset.sum_smul, Finset.smul_sum, smul_smul]
    exact Finset.sum_comm
  have h2 := h (fun j => y j - y' j)
  rw [← h2]
  simp only [piVal, smul_sub, Finset.sum_sub_distrib]
  abel

/-- The prover's values with other values of the left variables. -/
theorem thetaVal_other (a : Fin n → A) (x x' : Fin m → A) (γ : Fin m → Fin n → F)
    (S : Fin n → Fin q → F) (T : Fin q → Fin p → F) (u : Fin p → A) (l : Fin q) :
    thetaVal a x' γ S T u l = thetaVal a x γ S T u l - ∑ j, S j l • ∑ i, γ i j • (x i - x' i) := by
  have h : ∀ z : Fin m → A, ∑ i, (∑ j, S j l * γ i j) • z i = ∑ j, S j l • ∑ i, γ i j • z i := by
    intro z
    simp only [Finset.sum_smul, Finset.smul_sum, smul_smul]
    exact Finset.sum_comm
  have h2 := h (fun j => x j - x' j)
  rw [← h2]
  simp only [thetaVal, smul_sub, Finset.sum_sub_distrib]
  abel

theorem cross_left (f : A →ₗ[F] B →ₗ[F] C) (γ : Fin m → Fin n → F) (R : Fin m → Fin p → F) (u : Fin p → A) (z : Fin n → B) :
    ∑ k, f (u k) (∑ i, R i k • ∑ j, γ i j • z j) = ∑ i, ∑ j, γ i j • f (∑ k, R i k • u k) (z j) := by
  simp only [map_sum, map_smul, LinearMap.sum_apply, LinearMap.smul_apply]
  rw [Finset.sum_comm]
  refine Finset.sum_congr rfl fun i _ => ?_
  simp only [Finset.smul_sum]
  rw [Finset.sum_comm]
  refine Finset.sum_congr rfl fun j _ => Finset.sum_congr rfl fun k _ => smul_comm _ _ _

theorem cross_right (f : A →ₗ[F] B →ₗ[F] C) (γ : Fin m → Fin n → F) (S : Fin n → Fin q → F) (v : Fin q → B) (z : Fin m → A) :
    ∑ l, f (∑ j, S j l • ∑ i, γ i j • z i) (v l) = ∑ i, ∑ j, γ i j • f (z i) (∑ l, S j l • v l) := by
  simp only [map_sum, map_smul, LinearMap.sum_apply, LinearMap.smul_apply]
  rw [Finset.sum_comm, Finset.sum_comm (f := fun i j => γ i j • ∑ l, S j l • f (z i) (v l))]
  refine Finset.sum_congr rfl fun j _ => ?_
  simp only [Finset.smul_sum]
  rw [Finset.sum_comm]
  refine Finset.sum_congr rfl fun i _ => Finset.sum_congr rfl fun l _ => smul_comm _ _ _

end

theorem verifyCore_other [DecidableEq GT] (e : G1 →ₗ[F] G2 →ₗ[F] GT) (sch : Scheduler) {m n p q : Nat}
    (hm : 0 < m) (hn : 0 < n) (a x x' : _) (b y y' : _) (γ : Fin m → Fin n → F) (R : Fin m → Fin p → F)
    (S : Fin n → Fin q → F) (T : Fin q → Fin p → F) (u : Fin p → Com G1) (v : Fin q → Com G2)
    (t : ComT GT) :
    verifyCore e sch (matOf γ) (.ok (List.ofFn a)) (.ok (List.ofFn b))
      (List.ofFn fun i => x i + ∑ k, R i k • u k) (List.ofFn fun j => y j + ∑ l, S j l • v l) (.ok t)
      (.ok (∑ k, ComT.pairL e (u k) (piVal b y' γ R S T v k)))
      (.ok (∑ l, ComT.pairL e (thetaVal a x' γ S T u l) (v l))) =
    .ok (decide (equLhs (fun x y => ComT.pairing e x y) (List.ofFn a) (List.ofFn x) (List.ofFn b) (List.ofFn y)
      (matOf γ) + (∑ i, ∑ j, γ i j • ComT.pairL e (∑ k, R i k • u k) (y j - y' j)) +
        (∑ i, ∑ j, γ i j • ComT.pairL e (x i - x' i) (∑ l, S j l • v l)) = t)) := by
  rw [verifyCore_iff]
  refine ⟨_, _, _, _, _, rfl, rfl, rfl, rfl, rfl, by simp, by simp, ?_, ?_⟩
  · simp only [List.length_ofFn]
    refine .inr ⟨hm, hn, by simp, ?_, ?_⟩
    · intro r hr
      have := (rect_matOf γ).2 r (List.mem_of_mem_head? hr)
      exact this
    · intro r hr; exact ((rect_matOf γ).2 r hr).ge
  · refine decide_eq_decide.mpr ?_
    have h1 : (∑ k, ComT.pairL e (u k) (piVal b y' γ R S T v k)) = (∑ k, ComT.pairL e (u k) (piVal b y γ R S T v k)) -
        ∑ i, ∑ j, γ i j • ComT.pairL e (∑ k, R i k • u k) (y j - y' j) := by
      rw [← cross_left (ComT.pairL e) γ R u (fun j => y j - y' j), ← Finset.sum_sub_distrib]
      exact Finset.sum_congr rfl fun k _ => by rw [piVal_other b y y', map_sub]
    have h2 : (∑ l, ComT.pairL e (thetaVal a x' γ S T u l) (v l)) = (∑ l, ComT.pairL e (thetaVal a x γ S T u l) (v l)) -
        ∑ i, ∑ j, γ i j • ComT.pairL e (x i - x' i) (∑ l, S j l • v l) := by
      rw [← cross_right (ComT.pairL e) γ S v (fun i => x i - x' i), ← Finset.sum_sub_distrib]
      exact Finset.sum_congr rfl fun k _ => by rw [thetaVal_other a x x', map_sub, LinearMap.sub_apply]
    rw [h1, h2, equLhs_ofFn, equLhs_ofFn]
    have := gs_identity (ComT.pairL e) a x b y γ R S T u v _ _ (fun _ => rfl) (fun _ => rfl)
    have h3 : ∀ c : Fin m → Com G1, ∀ d : Fin n → Com G2, (∑ i, ComT.pairL e (c i) (∑ j, γ i j • d j)) =
        ∑ i, ∑ j, γ i j • ComT.pairL e (c i) (d j) := by
      intro c d; simp only [map_sum, map_smul]
    have hp : ∀ (x : Com G1) (y : Com G2), ComT.pairing e x y = ComT.pairL e x y := fun _ _ => rfl
    rw [h3] at this
    simp only [hp]
    rw [this]
    generalize (∑ k, ComT.pairL e (u k) (piVal b y γ R S T v k)) = P
    generalize (∑ l, ComT.pairL e (thetaVal a x γ S T u l) (v l)) = Q
    generalize (∑ i, ∑ j, γ i j • ComT.pairL e (∑ k, R i k • u k) (y j - y' j)) = V
    generalize (∑ i, ∑ j, γ i j • ComT.pairL e (x i - x' i) (∑ l, S j l • v l)) = W
    generalize (∑ j, ComT.pairL e (a j) (y j)) + (∑ i, ComT.pairL e (x i) (b i)) + ∑ i, ∑ j, γ i j • ComT.pairL e (x i) (y j) = Z
    constructor
    · intro h
      rw [← h]; abel
    · intro h
      have : Z + V + W = (Z + P + Q) - P - Q + V + W := by abel
      rw [this, h]; abel

/-! ### The four types -/

section
variable {ρ : Type} [Rng ρ F G1 G2] [DecidableEq GT]

theorem PPE.other (e : G1 →ₗ[F] G2 →ₗ[F] GT) (sch : Nat → Scheduler) (self : PPE F G1 G2 GT)
    (x xo : List G1) (y yo : List G2) (xc : Commit F G1) (yc : Commit F G2) (crs : CRS G1 G2 GT) (rng : ρ)
    (hx : x ≠ []) (hy : y ≠ []) (hxo : xo.length = x.length) (hyo : yo.length = y.length) (hd : self.Dims x.length y.length)
    (hu : crs.u.length = 2) (hv : crs.v.length = 2)
    (hxc : xc.OpensGroup crs.u x) (hyc : yc.OpensGroup crs.v y) :
    HonestRun (self.prove sch xo yo xc yc crs rng) (fun s cp => self.verify e s cp crs) .PairingProduct 2 2
      xc.coms yc.coms (ComT.linearMapPPE (equLhs (fun x y => e x y) self.a_consts x self.b_consts y self.gamma) +
        defect e self.gamma xc.coms (embG x) (embG xo) yc.coms (embG y) (embG yo) = ComT.linearMapPPE self.target) := by
  have hm := List.length_pos_iff.mpr hx
  have hn := List.length_pos_iff.mpr hy
  obtain ⟨m, hxm⟩ : ∃ m, x.length = m := ⟨_, rfl⟩
  obtain ⟨n, hyn⟩ : ∃ n, y.length = n := ⟨_, rfl⟩
  rw [hxm] at hm hd hxo
  rw [hyn] at hn hd hyo
  obtain ⟨a, ha⟩ := exists_ofFn self.a_consts hd.a
  obtain ⟨b, hb⟩ := exists_ofFn self.b_consts hd.b
  obtain ⟨γ, hγ⟩ := rect_iff.mp (⟨hd.rows, hd.cols⟩ : Rect _ _ self.gamma)
  obtain ⟨x', hx'⟩ := exists_ofFn x hxm
  obtain ⟨y', hy'⟩ := exists_ofFn y hyn
  obtain ⟨xo', hxo'⟩ := exists_ofFn xo hxo
  obtain ⟨yo', hyo'⟩ := exists_ofFn yo hyo
  rw [hx'] at hxc
  rw [hy'] at hyc
  obtain ⟨u0, u1, u', hu', R, hR, hcx⟩ := opensGroup_ofFn.mp hxc
  obtain ⟨v0, v1, v', hv', S, hS, hcy⟩ := opensGroup_ofFn.mp hyc
  have : u' = [] := by rw [hu'] at hu; simpa using hu
  subst this
  have : v' = [] := by rw [hv'] at hv; simpa using hv
  subst this
  rw [HonestRun, PPE.prove_eq, hR, hS, hγ, ha, hb, matOf22, hu', hv', ofFn2 u0, ofFn2 v0]
  have e1 : Com1.batchLinearMap xo = List.ofFn (fun i => i1 (F := F) (xo' i)) := by
    rw [hxo', batchLinearMap1_ofFn (F := F)]
  have e2 : Com2.batchLinearMap yo = List.ofFn (fun i => i2 (F := F) (yo' i)) := by
    rw [hyo', batchLinearMap2_ofFn (F := F)]
  rw [batchLinearMap1_ofFn (F := F), batchLinearMap2_ofFn (F := F), e1, e2, hxo, hyo,
    proveCore_matOf sch .PairingProduct hm hn (by decide) (by decide)]
  refine ⟨_, _, rfl, rfl, by simp, by simp, fun s cp hcp1 hcp2 hcp3 => ?_⟩
  refine ⟨decide (equLhs (fun x y => ComT.pairing e x y) (List.ofFn (fun i => i1 (F := F) (a i)))
      (List.ofFn (fun i => i1 (F := F) (x' i))) (List.ofFn (fun i => i2 (F := F) (b i))) (List.ofFn (fun i => i2 (F := F) (y' i))) (matOf γ) +
      (∑ i, ∑ j, γ i j • ComT.pairL e (∑ k, R i k • (![u0, u1] : Fin _ → Com G1) k) ((fun i => i2 (F := F) (y' i)) j - (fun i => i2 (F := F) (yo' i)) j)) +
      (∑ i, ∑ j, γ i j • ComT.pairL e ((fun i => i1 (F := F) (x' i)) i - (fun i => i1 (F := F) (xo' i)) i) (∑ l, S j l • (![v0, v1] : Fin _ → Com G2) l)) =
      ComT.linearMapPPE self.target), (PPE.verify_iff e s).mpr ⟨_, hcp3, rfl, ?_⟩, ?_⟩
  · rw [hγ, ha, hb, hcp1, hcp2, hcx, hcy, batchLinearMap1_ofFn (F := F), batchLinearMap2_ofFn (F := F), hu', hv',
      ofFn2 u0, ofFn2 v0, ComT.pairingSum_ofFn, ComT.pairingSum_ofFn]
    exact verifyCore_other e s hm hn _ (fun i => i1 (F := F) (x' i)) (fun i => i1 (F := F) (xo' i)) _ (fun i => i2 (F := F) (y' i)) (fun i => i2 (F := F) (yo' i)) γ R S _ _ _ _
  · rw [decide_eq_true_iff, hx', hy', hxo', hyo', hcx, hcy]
    have := equLhs_map (F := F) (fun x y => e x y) (fun x y => ComT.pairing e x y) (i1 (F := F)) (i2 (F := F)) tPPE
      (fun x y => by ext <;> simp [tPPE, i1_apply, i2_apply, ComT.linearMapPPE, ComT.pairing])
      (List.ofFn a) (List.ofFn x') (List.ofFn b) (List.ofFn y') (matOf γ)
    simp only [List.map_ofFn, Function.comp_def] at this
    rw [← this, defect, embG_ofFn, embG_ofFn, embG_ofFn, embG_ofFn,
      diffs_ofFn, diffs_ofFn, diffs_ofFn, diffs_ofFn, crossSum_ofFn, crossSum_ofFn, ← add_assoc]
    simp only [Pi.sub_apply, add_sub_cancel_left]
    rfl

theorem MSMEG1.other (e : G1 →ₗ[F] G2 →ₗ[F] GT) (sch : Nat → Scheduler) (self : MSMEG1 F G1)
    (x xo : List G1) (y yo : List F) (xc : Commit F G1) (yc : Commit F G2) (crs : CRS G1 G2 GT) (rng : ρ)
    (hx : x ≠ []) (hy : y ≠ []) (hxo : xo.length = x.length) (hyo : yo.length = y.length) (hd : self.Dims x.length y.length)
    (hu : crs.u.length = 2) {v0 v1 : Com G2} {v' : List (Com G2)} (hv : crs.v = v0 :: v1 :: v')
    (hxc : xc.OpensGroup crs.u x) (hyc : yc.OpensScalar crs.v crs.g2_gen y) :
    HonestRun (self.prove sch xo yo xc yc crs rng) (fun s cp => self.verify e s cp crs) .MultiScalarG1 2 1
      xc.coms yc.coms (tMSMEG1 e (v1 + ⟨0, crs.g2_gen⟩)
        (equLhs (fun (x : G1) (y : F) => y • x) self.a_consts x self.b_consts y self.gamma) +
        defect e self.gamma xc.coms (embG x) (embG xo) yc.coms (embS (v1 + ⟨0, crs.g2_gen⟩) y) (embS (v1 + ⟨0, crs.g2_gen⟩) yo) =
        tMSMEG1 e (v1 + ⟨0, crs.g2_gen⟩) self.target) := by
  have hm := List.length_pos_iff.mpr hx
  have hn := List.length_pos_iff.mpr hy
  obtain ⟨m, hxm⟩ : ∃ m, x.length = m := ⟨_, rfl⟩
  obtain ⟨n, hyn⟩ : ∃ n, y.length = n := ⟨_, rfl⟩
  rw [hxm] at hm hd hxo
  rw [hyn] at hn hd hyo
  obtain ⟨a, ha⟩ := exists_ofFn self.a_consts hd.a
  obtain ⟨b, hb⟩ := exists_ofFn self.b_consts hd.b
  obtain ⟨γ, hγ⟩ := rect_iff.mp (⟨hd.rows, hd.cols⟩ : Rect _ _ self.gamma)
  obtain ⟨x', hx'⟩ := exists_ofFn x hxm
  obtain ⟨y', hy'⟩ := exists_ofFn y hyn
  obtain ⟨xo', hxo'⟩ := exists_ofFn xo hxo
  obtain ⟨yo', hyo'⟩ := exists_ofFn yo hyo
  rw [hx'] at hxc
  rw [hy'] at hyc
  obtain ⟨u0, u1, u', hu', R, hR, hcx⟩ := opensGroup_ofFn.mp hxc
  obtain ⟨v0', v1', v'', hv', S, hS, hcy⟩ := opensScalar_ofFn.mp hyc
  have : u' = [] := by rw [hu'] at hu; simpa using hu
  subst this
  rw [hv] at hv'; cases hv'
  have hv1 : crs.v[1]? = some v1 := by rw [hv]; rfl
  have hv0 : idx crs.v 0 = .ok v0 := by rw [hv]; rfl
  rw [HonestRun, MSMEG1.prove_eq, hR, hS, hγ, ha, hb, matOf12, hu', ofFn2 u0, hv0, ok_bind, pure_eq_ok, col1 v0]
  have e1 : Com1.batchLinearMap xo = List.ofFn (fun i => i1 (F := F) (xo' i)) := by
    rw [hxo', batchLinearMap1_ofFn (F := F)]
  have e2 : Com2.batchScalarLinearMap yo crs = .ok (List.ofFn fun i => yo' i • (v1 + Com2.linearMap crs.g2_gen)) := by
    rw [hyo', batchScalarLinearMap2_ofFn _ hv1]
  rw [batchLinearMap1_ofFn (F := F), batchScalarLinearMap2_ofFn _ hv1, e1, e2, hxo, hyo,
    proveCore_matOf sch .MultiScalarG1 hm hn (by decide) (by decide)]
  refine ⟨_, _, rfl, rfl, by simp, by simp, fun s cp hcp1 hcp2 hcp3 => ?_⟩
  refine ⟨decide (equLhs (fun x y => ComT.pairing e x y) (List.ofFn (fun i => i1 (F := F) (a i)))
      (List.ofFn (fun i => i1 (F := F) (x' i))) (List.ofFn (fun i => b i • (v1 + Com2.linearMap crs.g2_gen))) (List.ofFn (fun i => y' i • (v1 + Com2.linearMap crs.g2_gen))) (matOf γ) +
      (∑ i, ∑ j, γ i j • ComT.pairL e (∑ k, R i k • (![u0, u1] : Fin _ → Com G1) k) ((fun i => y' i • (v1 + Com2.linearMap crs.g2_gen)) j - (fun i => yo' i • (v1 + Com2.linearMap crs.g2_gen)) j)) +
      (∑ i, ∑ j, γ i j • ComT.pairL e ((fun i => i1 (F := F) (x' i)) i - (fun i => i1 (F := F) (xo' i)) i) (∑ l, S j l • (![v0] : Fin _ → Com G2) l)) =
      tMSMEG1 e (v1 + Com2.linearMap crs.g2_gen) self.target), (MSMEG1.verify_iff e s).mpr ⟨_, hcp3, rfl, ?_⟩, ?_⟩
  · rw [hγ, ha, hb, hcp1, hcp2, hcx, hcy, batchLinearMap1_ofFn (F := F), batchScalarLinearMap2_ofFn _ hv1, hu',
      ofFn2 u0, ComT.pairingSum_ofFn, hv0, linearMapMSMEG1_iff.mpr ⟨v1, hv1, rfl⟩,
      idx_ofFn_lt _ (by decide : 0 < 1)]
    have := verifyCore_other e s hm hn (fun i => i1 (F := F) (a i)) (fun i => i1 (F := F) (x' i)) (fun i => i1 (F := F) (xo' i))
      (fun i => b i • (v1 + Com2.linearMap crs.g2_gen)) (fun i => y' i • (v1 + Com2.linearMap crs.g2_gen)) (fun i => yo' i • (v1 + Com2.linearMap crs.g2_gen)) γ R S
      ![![(d1 F G1 G2 rng).1, (d1 F G1 G2 (d1 F G1 G2 rng).2).1]] ![u0, u1] ![v0]
      (tMSMEG1 e (v1 + Com2.linearMap crs.g2_gen) self.target)
    rw [Fin.sum_univ_one (fun l => ComT.pairL e _ (![v0] l))] at this
    exact this
  · rw [decide_eq_true_iff, hx', hy', hxo', hyo', hcx, hcy]
    have := equLhs_map (F := F) (fun (x : G1) (y : F) => y • x) (fun x y => ComT.pairing e x y) (i1 (F := F))
      (fun y => y • (v1 + Com2.linearMap crs.g2_gen)) (tMSMEG1 e (v1 + Com2.linearMap crs.g2_gen))
      (fun x y => by rw [ComT.pairing_eq, map_smul, map_smul]; rfl)
      (List.ofFn a) (List.ofFn x') (List.ofFn b) (List.ofFn y') (matOf γ)
    simp only [List.map_ofFn, Function.comp_def] at this
    rw [← this, defect, embG_ofFn, embG_ofFn, embS_ofFn, embS_ofFn,
      diffs_ofFn, diffs_ofFn, diffs_ofFn, diffs_ofFn, crossSum_ofFn, crossSum_ofFn, ← add_assoc]
    simp only [Pi.sub_apply, add_sub_cancel_left]
    rfl

theorem MSMEG2.other (e : G1 →ₗ[F] G2 →ₗ[F] GT) (sch : Nat → Scheduler) (self : MSMEG2 F G2)
    (x xo : List F) (y yo : List G2) (xc : Commit F G1) (yc : Commit F G2) (crs : CRS G1 G2 GT) (rng : ρ)
    (hx : x ≠ []) (hy : y ≠ []) (hxo : xo.length = x.length) (hyo : yo.length = y.length) (hd : self.Dims x.length y.length)
    {u0 u1 : Com G1} {u' : List (Com G1)} (hu : crs.u = u0 :: u1 :: u') (hv : crs.v.length = 2)
    (hxc : xc.OpensScalar crs.u crs.g1_gen x) (hyc : yc.OpensGroup crs.v y) :
    HonestRun (self.prove sch xo yo xc yc crs rng) (fun s cp => self.verify e s cp crs) .MultiScalarG2 1 2
      xc.coms yc.coms (tMSMEG2 e (u1 + ⟨0, crs.g1_gen⟩)
        (equLhs (fun (x : F) (y : G2) => x • y) self.a_consts x self.b_consts y self.gamma) +
        defect e self.gamma xc.coms (embS (u1 + ⟨0, crs.g1_gen⟩) x) (embS (u1 + ⟨0, crs.g1_gen⟩) xo) yc.coms (embG y) (embG yo) =
        tMSMEG2 e (u1 + ⟨0, crs.g1_gen⟩) self.target) := by
  have hm := List.length_pos_iff.mpr hx
  have hn := List.length_pos_iff.mpr hy
  obtain ⟨m, hxm⟩ : ∃ m, x.length = m := ⟨_, rfl⟩
  obtain ⟨n, hyn⟩ : ∃ n, y.length = n := ⟨_, rfl⟩
  rw [hxm] at hm hd hxo
  rw [hyn] at hn hd hyo
  obtain ⟨a, ha⟩ := exists_ofFn self.a_consts hd.a
  obtain ⟨b, hb⟩ := exists_ofFn self.b_consts hd.b
  obtain ⟨γ, hγ⟩ := rect_iff.mp (⟨hd.rows, hd.cols⟩ : Rect _ _ self.gamma)
  obtain ⟨x', hx'⟩ := exists_ofFn x hxm
  obtain ⟨y', hy'⟩ := exists_ofFn y hyn
  obtain ⟨xo', hxo'⟩ := exists_ofFn xo hxo
  obtain ⟨yo', hyo'⟩ := exists_ofFn yo hyo
  rw [hx'] at hxc
  rw [hy'] at hyc
  obtain ⟨u0', u1', u'', hu', R, hR, hcx⟩ := opensScalar_ofFn.mp hxc
  obtain ⟨v0, v1, v', hv', S, hS, hcy⟩ := opensGroup_ofFn.mp hyc
  have : v' = [] := by rw [hv'] at hv; simpa using hv
  subst this
  rw [hu] at hu'; cases hu'
  have hu1 : crs.u[1]? = some u1 := by rw [hu]; rfl
  have hu0 : idx crs.u 0 = .ok u0 := by rw [hu]; rfl
  rw [HonestRun, MSMEG2.prove_eq, hR, hS, hγ, ha, hb, matOf21, hv', ofFn2 v0, hu0, ok_bind, pure_eq_ok, col1 u0]
  have e1 : Com2.batchLinearMap yo = List.ofFn (fun i => i2 (F := F) (yo' i)) := by
    rw [hyo', batchLinearMap2_ofFn (F := F)]
  have e2 : Com1.batchScalarLinearMap xo crs = .ok (List.ofFn fun i => xo' i • (u1 + Com1.linearMap crs.g1_gen)) := by
    rw [hxo', batchScalarLinearMap1_ofFn _ hu1]
  rw [batchLinearMap2_ofFn (F := F), batchScalarLinearMap1_ofFn _ hu1, e1, e2, hxo, hyo,
    proveCore_matOf sch .MultiScalarG2 hm hn (by decide) (by decide)]
  refine ⟨_, _, rfl, rfl, by simp, by simp, fun s cp hcp1 hcp2 hcp3 => ?_⟩
  refine ⟨decide (equLhs (fun x y => ComT.pairing e x y) (List.ofFn (fun i => a i • (u1 + Com1.linearMap crs.g1_gen)))
      (List.ofFn (fun i => x' i • (u1 + Com1.linearMap crs.g1_gen))) (List.ofFn (fun i => i2 (F := F) (b i))) (List.ofFn (fun i => i2 (F := F) (y' i))) (matOf γ) +
      (∑ i, ∑ j, γ i j • ComT.pairL e (∑ k, R i k • (![u0] : Fin _ → Com G1) k) ((fun i => i2 (F := F) (y' i)) j - (fun i => i2 (F := F) (yo' i)) j)) +
      (∑ i, ∑ j, γ i j • ComT.pairL e ((fun i => x' i • (u1 + Com1.linearMap crs.g1_gen)) i - (fun i => xo' i • (u1 + Com1.linearMap crs.g1_gen)) i) (∑ l, S j l • (![v0, v1] : Fin _ → Com G2) l)) =
      tMSMEG2 e (u1 + Com1.linearMap crs.g1_gen) self.target), (MSMEG2.verify_iff e s).mpr ⟨_, hcp3, rfl, ?_⟩, ?_⟩
  · rw [hγ, ha, hb, hcp1, hcp2, hcx, hcy, batchLinearMap2_ofFn (F := F), batchScalarLinearMap1_ofFn _ hu1, hv',
      ofFn2 v0, ComT.pairingSum_ofFn, hu0, linearMapMSMEG2_iff.mpr ⟨u1, hu1, rfl⟩,
      idx_ofFn_lt _ (by decide : 0 < 1)]
    have := verifyCore_other e s hm hn (fun i => a i • (u1 + Com1.linearMap crs.g1_gen)) (fun i => x' i • (u1 + Com1.linearMap crs.g1_gen)) (fun i => xo' i • (u1 + Com1.linearMap crs.g1_gen))
      (fun i => i2 (F := F) (b i)) (fun i => i2 (F := F) (y' i)) (fun i => i2 (F := F) (yo' i)) γ R S
      ![![(d1 F G1 G2 rng).1], ![(d1 F G1 G2 (d1 F G1 G2 rng).2).1]] ![u0] ![v0, v1]
      (tMSMEG2 e (u1 + Com1.linearMap crs.g1_gen) self.target)
    rw [Fin.sum_univ_one (fun l => ComT.pairL e (![u0] l) _)] at this
    exact this
  · rw [decide_eq_true_iff, hx', hy', hxo', hyo', hcx, hcy]
    have := equLhs_map (F := F) (fun (x : F) (y : G2) => x • y) (fun x y => ComT.pairing e x y)
      (fun y => y • (u1 + Com1.linearMap crs.g1_gen)) (i2 (F := F)) (tMSMEG2 e (u1 + Com1.linearMap crs.g1_gen))
      (fun x y => by rw [ComT.pairing_eq, map_smul, map_smul]; rfl)
      (List.ofFn a) (List.ofFn x') (List.ofFn b) (List.ofFn y') (matOf γ)
    simp only [List.map_ofFn, Function.comp_def] at this
    rw [← this, defect, embS_ofFn, embS_ofFn, embG_ofFn, embG_ofFn,
      diffs_ofFn, diffs_ofFn, diffs_ofFn, diffs_ofFn, crossSum_ofFn, crossSum_ofFn, ← add_assoc]
    simp only [Pi.sub_apply, add_sub_cancel_left]
    rfl

theorem QuadEqu.other (e : G1 →ₗ[F] G2 →ₗ[F] GT) (sch : Nat → Scheduler) (self : QuadEqu F)
    (x xo y yo : List F) (xc : Commit F G1) (yc : Commit F G2) (crs : CRS G1 G2 GT) (rng : ρ)
    (hx : x ≠ []) (hy : y ≠ []) (hxo : xo.length = x.length) (hyo : yo.length = y.length) (hd : self.Dims x.length y.length)
    {u0 u1 : Com G1} {u' : List (Com G1)} (hu : crs.u = u0 :: u1 :: u')
    {v0 v1 : Com G2} {v' : List (Com G2)} (hv : crs.v = v0 :: v1 :: v')
    (hxc : xc.OpensScalar crs.u crs.g1_gen x) (hyc : yc.OpensScalar crs.v crs.g2_gen y) :
    HonestRun (self.prove sch xo yo xc yc crs rng) (fun s cp => self.verify e s cp crs) .Quadratic 1 1
      xc.coms yc.coms (tQuad e (u1 + ⟨0, crs.g1_gen⟩) (v1 + ⟨0, crs.g2_gen⟩)
        (equLhs (fun x y : F => x * y) self.a_consts x self.b_consts y self.gamma) +
        defect e self.gamma xc.coms (embS (u1 + ⟨0, crs.g1_gen⟩) x) (embS (u1 + ⟨0, crs.g1_gen⟩) xo) yc.coms (embS (v1 + ⟨0, crs.g2_gen⟩) y) (embS (v1 + ⟨0, crs.g2_gen⟩) yo) =
        tQuad e (u1 + ⟨0, crs.g1_gen⟩) (v1 + ⟨0, crs.g2_gen⟩) self.target) := by
  have hm := List.length_pos_iff.mpr hx
  have hn := List.length_pos_iff.mpr hy
  obtain ⟨m, hxm⟩ : ∃ m, x.length = m := ⟨_, rfl⟩
  obtain ⟨n, hyn⟩ : ∃ n, y.length = n := ⟨_, rfl⟩
  rw [hxm] at hm hd hxo
  rw [hyn] at hn hd hyo
  obtain ⟨a, ha⟩ := exists_ofFn self.a_consts hd.a
  obtain ⟨b, hb⟩ := exists_ofFn self.b_consts hd.b
  obtain ⟨γ, hγ⟩ := rect_iff.mp (⟨hd.rows, hd.cols⟩ : Rect _ _ self.gamma)
  obtain ⟨x', hx'⟩ := exists_ofFn x hxm
  obtain ⟨y', hy'⟩ := exists_ofFn y hyn
  obtain ⟨xo', hxo'⟩ := exists_ofFn xo hxo
  obtain ⟨yo', hyo'⟩ := exists_ofFn yo hyo
  rw [hx'] at hxc
  rw [hy'] at hyc
  obtain ⟨u0', u1', u'', hu', R, hR, hcx⟩ := opensScalar_ofFn.mp hxc
  obtain ⟨v0', v1', v'', hv', S, hS, hcy⟩ := opensScalar_ofFn.mp hyc
  rw [hu] at hu'; cases hu'
  rw [hv] at hv'; cases hv'
  have hu1 : crs.u[1]? = some u1 := by rw [hu]; rfl
  have hu0 : idx crs.u 0 = .ok u0 := by rw [hu]; rfl
  have hv1 : crs.v[1]? = some v1 := by rw [hv]; rfl
  have hv0 : idx crs.v 0 = .ok v0 := by rw [hv]; rfl
  rw [HonestRun, QuadEqu.prove_eq, hR, hS, hγ, ha, hb, matOf11, hu0, hv0, ok_bind, ok_bind, pure_eq_ok, pure_eq_ok,
    col1 u0, col1 v0]
  have e1 : Com2.batchScalarLinearMap yo crs = .ok (List.ofFn fun i => yo' i • (v1 + Com2.linearMap crs.g2_gen)) := by
    rw [hyo', batchScalarLinearMap2_ofFn _ hv1]
  have e2 : Com1.batchScalarLinearMap xo crs = .ok (List.ofFn fun i => xo' i • (u1 + Com1.linearMap crs.g1_gen)) := by
    rw [hxo', batchScalarLinearMap1_ofFn _ hu1]
  rw [batchScalarLinearMap2_ofFn _ hv1, batchScalarLinearMap1_ofFn _ hu1, e1, e2, hxo, hyo,
    proveCore_matOf sch .Quadratic hm hn (by decide) (by decide)]
  refine ⟨_, _, rfl, rfl, by simp, by simp, fun s cp hcp1 hcp2 hcp3 => ?_⟩
  refine ⟨decide (equLhs (fun x y => ComT.pairing e x y) (List.ofFn (fun i => a i • (u1 + Com1.linearMap crs.g1_gen)))
      (List.ofFn (fun i => x' i • (u1 + Com1.linearMap crs.g1_gen))) (List.ofFn (fun i => b i • (v1 + Com2.linearMap crs.g2_gen))) (List.ofFn (fun i => y' i • (v1 + Com2.linearMap crs.g2_gen))) (matOf γ) +
      (∑ i, ∑ j, γ i j • ComT.pairL e (∑ k, R i k • (![u0] : Fin _ → Com G1) k) ((fun i => y' i • (v1 + Com2.linearMap crs.g2_gen)) j - (fun i => yo' i • (v1 + Com2.linearMap crs.g2_gen)) j)) +
      (∑ i, ∑ j, γ i j • ComT.pairL e ((fun i => x' i • (u1 + Com1.linearMap crs.g1_gen)) i - (fun i => xo' i • (u1 + Com1.linearMap crs.g1_gen)) i) (∑ l, S j l • (![v0] : Fin _ → Com G2) l)) =
      tQuad e (u1 + Com1.linearMap crs.g1_gen) (v1 + Com2.linearMap crs.g2_gen) self.target), (QuadEqu.verify_iff e s).mpr ⟨_, hcp3, rfl, ?_⟩, ?_⟩
  · rw [hγ, ha, hb, hcp1, hcp2, hcx, hcy, batchScalarLinearMap2_ofFn _ hv1, batchScalarLinearMap1_ofFn _ hu1,
      hu0, hv0, linearMapQuad_iff.mpr ⟨u1, v1, hu1, hv1, rfl⟩,
      idx_ofFn_lt _ (by decide : 0 < 1), idx_ofFn_lt _ (by decide : 0 < 1)]
    have := verifyCore_other e s hm hn (fun i => a i • (u1 + Com1.linearMap crs.g1_gen)) (fun i => x' i • (u1 + Com1.linearMap crs.g1_gen)) (fun i => xo' i • (u1 + Com1.linearMap crs.g1_gen))
      (fun i => b i • (v1 + Com2.linearMap crs.g2_gen)) (fun i => y' i • (v1 + Com2.linearMap crs.g2_gen)) (fun i => yo' i • (v1 + Com2.linearMap crs.g2_gen)) γ R S
      ![![(d1 F G1 G2 rng).1]] ![u0] ![v0]
      (tQuad e (u1 + Com1.linearMap crs.g1_gen) (v1 + Com2.linearMap crs.g2_gen) self.target)
    rw [Fin.sum_univ_one (fun l => ComT.pairL e (![u0] l) _), Fin.sum_univ_one (fun l => ComT.pairL e _ (![v0] l))] at this
    exact this
  · rw [decide_eq_true_iff, hx', hy', hxo', hyo', hcx, hcy]
    have := equLhs_map (F := F) (fun x y : F => x * y) (fun x y => ComT.pairing e x y)
      (fun y => y • (u1 + Com1.linearMap crs.g1_gen)) (fun y => y • (v1 + Com2.linearMap crs.g2_gen))
      (tQuad e (u1 + Com1.linearMap crs.g1_gen) (v1 + Com2.linearMap crs.g2_gen))
      (fun x y => by rw [ComT.pairing_eq, map_smul, map_smul, LinearMap.smul_apply, smul_comm, smul_smul]; rfl)
      (List.ofFn a) (List.ofFn x') (List.ofFn b) (List.ofFn y') (matOf γ)
    simp only [List.map_ofFn, Function.comp_def] at this
    rw [← this, defect, embS_ofFn, embS_ofFn, embS_ofFn, embS_ofFn,
      diffs_ofFn, diffs_ofFn, diffs_ofFn, diffs_ofFn, crossSum_ofFn, crossSum_ofFn, ← add_assoc]
    simp only [Pi.sub_apply, add_sub_cancel_left]
    rfl

end
end GS
