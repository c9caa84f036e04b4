import Verif.Lemmas.Complete

/-! Projections killing a binding key; soundness. -/

set_option linter.unusedSectionVars false
set_option linter.unusedVariables false

namespace GS
variable {F G1 G2 GT : Type} [Field F] [AddCommGroup G1] [Module F G1] [AddCommGroup G2] [Module F G2]
  [AddCommGroup GT] [Module F GT]

section
variable {G : Type} [AddCommGroup G] [Module F G]

/-- `c ↦ c1 - a c0`. -/
def proj (a : F) : Com G →ₗ[F] G := Com.snd - a • Com.fst

theorem proj_apply (a : F) (c : Com G) : proj a c = c.c1 - a • c.c0 := rfl

theorem proj_lin (a : F) (x : G) : proj a (⟨0, x⟩ : Com G) = x := by simp [proj_apply]
theorem proj_key0 (a : F) (g : G) : proj a (⟨g, a • g⟩ : Com G) = 0 := by simp [proj_apply]
theorem proj_key1 (a t : F) (g : G) : proj a (⟨t • g, t • a • g⟩ : Com G) = 0 := by
  rw [proj_apply]; module

theorem canOpenGroup_iff {u : List (Com G)} {g : G} {a t : F} (hg : ∀ x : G, ∃ k : F, x = k • g)
    (hu : u = [⟨g, a • g⟩, ⟨t • g, t • a • g⟩]) (c : Com G) (x : G) :
    CanOpenGroup F u c x ↔ x = proj a c := by
  constructor
  · rintro ⟨u0, u1, u', hu', r, rfl⟩
    rw [hu] at hu'; cases hu'
    simp [groupCom, proj_lin, proj_key0, proj_key1]
  · rintro rfl
    obtain ⟨k, hk⟩ := hg c.c0
    refine ⟨_, _, _, hu, (k, 0), ?_⟩
    ext
    · simp [groupCom, hk]
    · simp [groupCom, proj_apply, hk]; module

theorem canOpenScalar_iff {u : List (Com G)} {g : G} {a t : F} (hg : ∀ x : G, ∃ k : F, x = k • g)
    (hu : u = [⟨g, a • g⟩, ⟨t • g, t • a • g⟩]) (c : Com G) (x : F) :
    CanOpenScalar u g c x ↔ x • g = proj a c := by
  constructor
  · rintro ⟨u0, u1, u', hu', r, rfl⟩
    rw [hu] at hu'; cases hu'
    simp [scalarCom, proj_lin, proj_key0, proj_key1]
  · intro h
    obtain ⟨k, hk⟩ := hg c.c0
    refine ⟨_, _, _, hu, k - x * t, ?_⟩
    rw [proj_apply, eq_sub_iff_add_eq, hk] at h
    ext
    · simp only [scalarCom, Com.add_c0, Com.smul_c0, hk]; module
    · simp only [scalarCom, Com.add_c1, Com.smul_c1, ← h]; module

/-- The scalar committed to. -/
noncomputable def scalarOpening (g : G) (hg : ∀ x : G, ∃ k : F, x = k • g) (a : F) (c : Com G) : F :=
  (hg (proj a c)).choose

theorem scalarOpening_spec (g : G) (hg : ∀ x : G, ∃ k : F, x = k • g) (a : F) (c : Com G) :
    scalarOpening g hg a c • g = proj a c := (hg (proj a c)).choose_spec.symm

theorem canOpenScalar_iff' {u : List (Com G)} {g : G} {a t : F} (h0 : g ≠ 0) (hg : ∀ x : G, ∃ k : F, x = k • g)
    (hu : u = [⟨g, a • g⟩, ⟨t • g, t • a • g⟩]) (c : Com G) (x : F) :
    CanOpenScalar u g c x ↔ x = scalarOpening g hg a c := by
  rw [canOpenScalar_iff hg hu, ← scalarOpening_spec g hg a c, smul_left_inj h0]

end

/-- `t ↦ t3 - a1 t1 - a2 t2 + a1 a2 t0`. -/
def projT (a1 a2 : F) : ComT GT →ₗ[F] GT where
  toFun t := t.t3 - a1 • t.t1 - a2 • t.t2 + (a1 * a2) • t.t0
  map_add' x y := by simp only [ComT.add_t0, ComT.add_t1, ComT.add_t2, ComT.add_t3]; module
  map_smul' r x := by
    simp only [ComT.smul_t0, ComT.smul_t1, ComT.smul_t2, ComT.smul_t3, RingHom.id_apply]; module

theorem projT_pairing (e : G1 →ₗ[F] G2 →ₗ[F] GT) (a1 a2 : F) (c : Com G1) (d : Com G2) :
    projT a1 a2 (ComT.pairing e c d) = e (proj a1 c) (proj a2 d) := by
  simp only [projT, LinearMap.coe_mk, AddHom.coe_mk, ComT.pairing, proj_apply, map_sub, map_smul,
    LinearMap.sub_apply, LinearMap.smul_apply]
  module

theorem projT_PPE (a1 a2 : F) (z : GT) : projT a1 a2 (ComT.linearMapPPE z) = z := by
  simp [projT, ComT.linearMapPPE]

theorem projT_sum_left (e : G1 →ₗ[F] G2 →ₗ[F] GT) {a1 a2 : F} {u : List (Com G1)} {l : List (Com G2)}
    (hu : ∀ c ∈ u, proj a1 c = 0) :
    projT a1 a2 (List.zipWith (fun x y => ComT.pairing e x y) u l).sum = 0 := by
  induction u generalizing l with
  | nil => simp
  | cons c u ih =>
    cases l with
    | nil => simp
    | cons d l =>
      simp only [List.zipWith_cons_cons, List.sum_cons, map_add, projT_pairing]
      rw [hu c (by simp), ih fun c hc => hu c (by simp [hc])]
      simp

theorem projT_sum_right (e : G1 →ₗ[F] G2 →ₗ[F] GT) {a1 a2 : F} {v : List (Com G2)} {l : List (Com G1)}
    (hv : ∀ c ∈ v, proj a2 c = 0) :
    projT a1 a2 (List.zipWith (fun x y => ComT.pairing e x y) l v).sum = 0 := by
  induction v generalizing l with
  | nil => simp
  | cons c u ih =>
    cases l with
    | nil => simp
    | cons d l =>
      simp only [List.zipWith_cons_cons, List.sum_cons, map_add, projT_pairing]
      rw [hv c (by simp), ih fun c hc => hv c (by simp [hc])]
      simp

theorem projT_head_left (e : G1 →ₗ[F] G2 →ₗ[F] GT) {a1 a2 : F} {u : List (Com G1)} {l : List (Com G2)} {t : ComT GT}
    (hu : ∀ c ∈ u, proj a1 c = 0) (h : (do pure (ComT.pairing e (← idx u 0) (← idx l 0)) : Res _) = .ok t) :
    projT a1 a2 t = 0 := by
  simp only [bind_ok_iff, pure_eq_ok, Except.ok.injEq, idx_eq_ok] at h
  obtain ⟨c, hc, d, hd, rfl⟩ := h
  rw [projT_pairing, hu c (List.mem_of_getElem? hc)]
  simp

theorem projT_head_right (e : G1 →ₗ[F] G2 →ₗ[F] GT) {a1 a2 : F} {v : List (Com G2)} {l : List (Com G1)} {t : ComT GT}
    (hv : ∀ c ∈ v, proj a2 c = 0) (h : (do pure (ComT.pairing e (← idx l 0) (← idx v 0)) : Res _) = .ok t) :
    projT a1 a2 t = 0 := by
  simp only [bind_ok_iff, pure_eq_ok, Except.ok.injEq, idx_eq_ok] at h
  obtain ⟨c, hc, d, hd, rfl⟩ := h
  rw [projT_pairing, hv d (List.mem_of_getElem? hd)]
  simp

variable [DecidableEq GT] {e : G1 →ₗ[F] G2 →ₗ[F] GT} {crs : CRS G1 G2 GT} {sch : Scheduler}

theorem Binding.u0 {a1 t1 a2 t2 : F} (h : Binding e crs a1 t1 a2 t2) : ∀ c ∈ crs.u, proj a1 c = 0 := by
  rw [h.u]; simp [proj_key0, proj_key1]
theorem Binding.v0 {a1 t1 a2 t2 : F} (h : Binding e crs a1 t1 a2 t2) : ∀ c ∈ crs.v, proj a2 c = 0 := by
  rw [h.v]; simp [proj_key0, proj_key1]
theorem Binding.u_one {a1 t1 a2 t2 : F} (h : Binding e crs a1 t1 a2 t2) :
    crs.u[1]? = some ⟨t1 • crs.g1_gen, t1 • a1 • crs.g1_gen⟩ := by rw [h.u]; rfl
theorem Binding.v_one {a1 t1 a2 t2 : F} (h : Binding e crs a1 t1 a2 t2) :
    crs.v[1]? = some ⟨t2 • crs.g2_gen, t2 • a2 • crs.g2_gen⟩ := by rw [h.v]; rfl

/-- Projecting an accepted verification equation. -/
theorem verifyCore_proj {a1 a2 : F} {gamma : Matrix F}
    {la : Res (List (Com G1))} {lb : Res (List (Com G2))} {c : List (Com G1)} {d : List (Com G2)}
    {lt p1 p2 : Res (ComT GT)} (h : verifyCore e sch gamma la lb c d lt p1 p2 = .ok true)
    (h1 : ∀ q, p1 = .ok q → projT a1 a2 q = 0) (h2 : ∀ q, p2 = .ok q → projT a1 a2 q = 0) :
    ∃ a b t, la = .ok a ∧ lb = .ok b ∧ lt = .ok t ∧
      equLhs (fun x y => e x y) (a.map (proj a1)) (c.map (proj a1)) (b.map (proj a2)) (d.map (proj a2)) gamma =
        projT a1 a2 t := by
  obtain ⟨a, b, t, q1, q2, ha, hb, ht, hq1, hq2, -, -, -, hr⟩ := verifyCore_iff.mp h
  have hr := of_decide_eq_true hr.symm
  refine ⟨a, b, t, ha, hb, ht, ?_⟩
  rw [← equLhs_map (F := F) (fun x y => ComT.pairing e x y) (fun x y => e x y) (proj a1) (proj a2) (projT a1 a2)
    (projT_pairing e a1 a2), hr, map_add, map_add, h1 _ hq1, h2 _ hq2, add_zero, add_zero]

theorem proj_scalar_map {G : Type} [AddCommGroup G] [Module F G] {a t : F} {g : G} (l : List F) :
    (l.map fun x => x • ((⟨t • g, t • a • g⟩ : Com G) + ⟨0, g⟩)).map (proj a) = l.map (· • g) := by
  rw [List.map_map]
  refine List.map_congr_left fun x _ => ?_
  simp [proj_lin, proj_key1]

theorem batch1_proj {a1 t1 a2 t2 : F} (hb : Binding e crs a1 t1 a2 t2) {l : List F} {c : List (Com G1)}
    (h : Com1.batchScalarLinearMap l crs = .ok c) : c.map (proj a1) = l.map (· • crs.g1_gen) := by
  rcases batchScalarLinearMap1_iff.mp h with ⟨rfl, rfl⟩ | ⟨w, hw, rfl⟩
  · rfl
  · rw [hb.u_one] at hw; cases hw
    exact proj_scalar_map l

theorem batch2_proj {a1 t1 a2 t2 : F} (hb : Binding e crs a1 t1 a2 t2) {l : List F} {c : List (Com G2)}
    (h : Com2.batchScalarLinearMap l crs = .ok c) : c.map (proj a2) = l.map (· • crs.g2_gen) := by
  rcases batchScalarLinearMap2_iff.mp h with ⟨rfl, rfl⟩ | ⟨w, hw, rfl⟩
  · rfl
  · rw [hb.v_one] at hw; cases hw
    exact proj_scalar_map l

theorem map_lin1 (a : F) (l : List G1) : (Com1.batchLinearMap l).map (proj a) = l := by
  rw [Com1.batchLinearMap, List.map_map]
  conv_rhs => rw [← List.map_id l]
  exact List.map_congr_left fun x _ => proj_lin a x

theorem map_lin2 (a : F) (l : List G2) : (Com2.batchLinearMap l).map (proj a) = l := by
  rw [Com2.batchLinearMap, List.map_map]
  conv_rhs => rw [← List.map_id l]
  exact List.map_congr_left fun x _ => proj_lin a x

theorem projT_MSMEG1 {a1 t1 a2 t2 : F} (hb : Binding e crs a1 t1 a2 t2) {z : G1} {t : ComT GT}
    (h : ComT.linearMapMSMEG1 e z crs = .ok t) : projT a1 a2 t = e z crs.g2_gen := by
  obtain ⟨w, hw, rfl⟩ := linearMapMSMEG1_iff.mp h
  rw [hb.v_one] at hw; cases hw
  change projT a1 a2 (ComT.pairing e _ _) = _
  rw [projT_pairing, i1_apply, proj_lin, map_add, proj_key1, Com2.linearMap, proj_lin, zero_add]

theorem projT_MSMEG2 {a1 t1 a2 t2 : F} (hb : Binding e crs a1 t1 a2 t2) {z : G2} {t : ComT GT}
    (h : ComT.linearMapMSMEG2 e z crs = .ok t) : projT a1 a2 t = e crs.g1_gen z := by
  obtain ⟨w, hw, rfl⟩ := linearMapMSMEG2_iff.mp h
  rw [hb.u_one] at hw; cases hw
  change projT a1 a2 (ComT.pairing e _ _) = _
  rw [projT_pairing, i2_apply, proj_lin, map_add, proj_key1, Com1.linearMap, proj_lin, zero_add]

theorem projT_Quad {a1 t1 a2 t2 : F} (hb : Binding e crs a1 t1 a2 t2) {z : F} {t : ComT GT}
    (h : ComT.linearMapQuad e z crs = .ok t) : projT a1 a2 t = z • e crs.g1_gen crs.g2_gen := by
  obtain ⟨w1, w2, hw1, hw2, rfl⟩ := linearMapQuad_iff.mp h
  rw [hb.u_one] at hw1; cases hw1
  rw [hb.v_one] at hw2; cases hw2
  change projT a1 a2 (z • ComT.pairing e _ _) = _
  rw [map_smul, projT_pairing, map_add (proj a1), map_add (proj a2), proj_key1, Com1.linearMap, Com2.linearMap,
    proj_lin, zero_add, proj_key1, proj_lin, zero_add]

theorem PPE.extract {a1 t1 a2 t2 : F} (hb : Binding e crs a1 t1 a2 t2) {equ : PPE F G1 G2 GT} {cp : CProof F G1 G2}
    (h : equ.verify e sch cp crs = .ok true) :
    equ.Holds e (cp.xcoms.coms.map (proj a1)) (cp.ycoms.coms.map (proj a2)) := by
  obtain ⟨pf, -, -, h⟩ := (PPE.verify_iff e sch).mp h
  obtain ⟨a, b, t, ha, hb', ht, h⟩ := verifyCore_proj (a1 := a1) (a2 := a2) h
    (fun q hq => by rw [(ComT.pairingSum_iff e).mp hq |>.2]; exact projT_sum_left e hb.u0)
    (fun q hq => by rw [(ComT.pairingSum_iff e).mp hq |>.2]; exact projT_sum_right e hb.v0)
  cases ha; cases hb'; cases ht
  rwa [map_lin1, map_lin2, projT_PPE] at h

theorem MSMEG1.extract (he : PrimeGroups e) (h0 : crs.NonzeroGens) {a1 t1 a2 t2 : F}
    (hb : Binding e crs a1 t1 a2 t2) {equ : MSMEG1 F G1} {cp : CProof F G1 G2}
    (h : equ.verify e sch cp crs = .ok true) :
    equ.Holds (cp.xcoms.coms.map (proj a1)) (cp.ycoms.coms.map (scalarOpening crs.g2_gen (he.cyclic2 _ h0.2) a2)) := by
  obtain ⟨pf, -, -, h⟩ := (MSMEG1.verify_iff e sch).mp h
  obtain ⟨a, b, t, ha, hb', ht, h⟩ := verifyCore_proj (a1 := a1) (a2 := a2) h
    (fun q hq => by rw [(ComT.pairingSum_iff e).mp hq |>.2]; exact projT_sum_left e hb.u0)
    (fun q hq => projT_head_right e hb.v0 hq)
  cases ha
  rw [map_lin1, projT_MSMEG1 hb ht, batch2_proj hb hb'] at h
  have := equLhs_map (F := F) (fun (x : G1) (y : F) => y • x) (fun x y => e x y) id (· • crs.g2_gen)
    (e.flip crs.g2_gen) (fun x y => by simp) equ.a_consts (cp.xcoms.coms.map (proj a1)) equ.b_consts
    (cp.ycoms.coms.map (scalarOpening crs.g2_gen (he.cyclic2 _ h0.2) a2)) equ.gamma
  rw [List.map_id, List.map_id, List.map_map] at this
  have e1 : cp.ycoms.coms.map ((· • crs.g2_gen) ∘ scalarOpening crs.g2_gen (he.cyclic2 _ h0.2) a2) =
      cp.ycoms.coms.map (proj a2) := List.map_congr_left fun c _ => scalarOpening_spec _ _ _ _
  rw [e1, h, LinearMap.flip_apply, ← sub_eq_zero, ← LinearMap.sub_apply, ← map_sub] at this
  exact sub_eq_zero.mp ((he.nondeg _ _ this).resolve_right h0.2)

theorem MSMEG2.extract (he : PrimeGroups e) (h0 : crs.NonzeroGens) {a1 t1 a2 t2 : F}
    (hb : Binding e crs a1 t1 a2 t2) {equ : MSMEG2 F G2} {cp : CProof F G1 G2}
    (h : equ.verify e sch cp crs = .ok true) :
    equ.Holds (cp.xcoms.coms.map (scalarOpening crs.g1_gen (he.cyclic1 _ h0.1) a1)) (cp.ycoms.coms.map (proj a2)) := by
  obtain ⟨pf, -, -, h⟩ := (MSMEG2.verify_iff e sch).mp h
  obtain ⟨a, b, t, ha, hb', ht, h⟩ := verifyCore_proj (a1 := a1) (a2 := a2) h
    (fun q hq => projT_head_left e hb.u0 hq)
    (fun q hq => by rw [(ComT.pairingSum_iff e).mp hq |>.2]; exact projT_sum_right e hb.v0)
  cases hb'
  rw [map_lin2, projT_MSMEG2 hb ht, batch1_proj hb ha] at h
  have := equLhs_map (F := F) (fun (x : F) (y : G2) => x • y) (fun x y => e x y) (· • crs.g1_gen) id
    (e crs.g1_gen) (fun x y => by simp) equ.a_consts
    (cp.xcoms.coms.map (scalarOpening crs.g1_gen (he.cyclic1 _ h0.1) a1)) equ.b_consts
    (cp.ycoms.coms.map (proj a2)) equ.gamma
  rw [List.map_id, List.map_id, List.map_map] at this
  have e1 : cp.xcoms.coms.map ((· • crs.g1_gen) ∘ scalarOpening crs.g1_gen (he.cyclic1 _ h0.1) a1) =
      cp.xcoms.coms.map (proj a1) := List.map_congr_left fun c _ => scalarOpening_spec _ _ _ _
  rw [e1, h, ← sub_eq_zero, ← map_sub] at this
  exact sub_eq_zero.mp ((he.nondeg _ _ this).resolve_left h0.1)

theorem QuadEqu.extract (he : PrimeGroups e) (h0 : crs.NonzeroGens) {a1 t1 a2 t2 : F}
    (hb : Binding e crs a1 t1 a2 t2) {equ : QuadEqu F} {cp : CProof F G1 G2}
    (h : equ.verify e sch cp crs = .ok true) :
    equ.Holds (cp.xcoms.coms.map (scalarOpening crs.g1_gen (he.cyclic1 _ h0.1) a1))
      (cp.ycoms.coms.map (scalarOpening crs.g2_gen (he.cyclic2 _ h0.2) a2)) := by
  obtain ⟨pf, -, -, h⟩ := (QuadEqu.verify_iff e sch).mp h
  obtain ⟨a, b, t, ha, hb', ht, h⟩ := verifyCore_proj (a1 := a1) (a2 := a2) h
    (fun q hq => projT_head_left e hb.u0 hq)
    (fun q hq => projT_head_right e hb.v0 hq)
  rw [projT_Quad hb ht, batch1_proj hb ha, batch2_proj hb hb'] at h
  have := equLhs_map (F := F) (fun x y : F => x * y) (fun x y => e x y) (· • crs.g1_gen) (· • crs.g2_gen)
    (LinearMap.toSpanSingleton F GT (e crs.g1_gen crs.g2_gen))
    (fun x y => by simp only [LinearMap.toSpanSingleton_apply, map_smul, LinearMap.smul_apply]; module)
    equ.a_consts (cp.xcoms.coms.map (scalarOpening crs.g1_gen (he.cyclic1 _ h0.1) a1)) equ.b_consts
    (cp.ycoms.coms.map (scalarOpening crs.g2_gen (he.cyclic2 _ h0.2) a2)) equ.gamma
  rw [List.map_map, List.map_map] at this
  have e1 : cp.xcoms.coms.map ((· • crs.g1_gen) ∘ scalarOpening crs.g1_gen (he.cyclic1 _ h0.1) a1) =
      cp.xcoms.coms.map (proj a1) := List.map_congr_left fun c _ => scalarOpening_spec _ _ _ _
  have e2 : cp.ycoms.coms.map ((· • crs.g2_gen) ∘ scalarOpening crs.g2_gen (he.cyclic2 _ h0.2) a2) =
      cp.ycoms.coms.map (proj a2) := List.map_congr_left fun c _ => scalarOpening_spec _ _ _ _
  rw [e1, e2, h, LinearMap.toSpanSingleton_apply] at this
  have hne : e crs.g1_gen crs.g2_gen ≠ 0 := fun h => by
    rcases he.nondeg _ _ h with h | h
    · exact h0.1 h
    · exact h0.2 h
  exact smul_left_injective F hne this

theorem forall₂_fun_iff {α β : Type} {R : α → β → Prop} {f : α → β} (h : ∀ a b, R a b ↔ b = f a) (l : List α) (l' : List β) :
    List.Forall₂ R l l' ↔ l' = l.map f := by
  induction l generalizing l' with
  | nil => simp
  | cons a l ih =>
    cases l' with
    | nil => simp
    | cons b l' => simp [h, ih]

end GS
