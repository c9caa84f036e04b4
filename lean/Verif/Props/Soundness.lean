import Verif.Lemmas.Sound
import Verif.Props.Completeness

/-!
# C05–C08 soundness, C10–C12 binding and joint soundness, C45 targets, C49 degenerate CRS
-/

set_option linter.unusedSectionVars false

namespace GS
variable {F G1 G2 GT : Type} [Field F] [AddCommGroup G1] [Module F G1] [AddCommGroup G2] [Module F G2]
  [AddCommGroup GT] [Module F GT] [DecidableEq GT]

/-- C05.  `cp` is arbitrary.  The list of vectors the commitments can be opened to has exactly one element on
each side, and this satisfies the equation. -/
theorem C05_ppe_sound (e : G1 →ₗ[F] G2 →ₗ[F] GT) (he : PrimeGroups e) (crs : CRS G1 G2 GT)
    (hc : GeneratedCrs e crs) (h0 : crs.NonzeroGens) (equ : PPE F G1 G2 GT) (cp : CProof F G1 G2) (sch : Scheduler)
    (h : equ.verify e sch cp crs = .ok true) :
    ∃ (x : List G1) (y : List G2),
      (∀ x', List.Forall₂ (CanOpenGroup F crs.u) cp.xcoms.coms x' ↔ x' = x) ∧
      (∀ y', List.Forall₂ (CanOpenGroup F crs.v) cp.ycoms.coms y' ↔ y' = y) ∧ equ.Holds e x y := by
  obtain ⟨a1, t1, a2, t2, hb⟩ := hc.binding
  exact ⟨_, _, forall₂_fun_iff (canOpenGroup_iff (he.cyclic1 _ h0.1) hb.u) _,
    forall₂_fun_iff (canOpenGroup_iff (he.cyclic2 _ h0.2) hb.v) _, PPE.extract hb h⟩

/-- C06. -/
theorem C06_msmeg1_sound (e : G1 →ₗ[F] G2 →ₗ[F] GT) (he : PrimeGroups e) (crs : CRS G1 G2 GT)
    (hc : GeneratedCrs e crs) (h0 : crs.NonzeroGens) (equ : MSMEG1 F G1) (cp : CProof F G1 G2) (sch : Scheduler)
    (h : equ.verify e sch cp crs = .ok true) :
    ∃ (x : List G1) (y : List F),
      (∀ x', List.Forall₂ (CanOpenGroup F crs.u) cp.xcoms.coms x' ↔ x' = x) ∧
      (∀ y', List.Forall₂ (CanOpenScalar crs.v crs.g2_gen) cp.ycoms.coms y' ↔ y' = y) ∧ equ.Holds x y := by
  obtain ⟨a1, t1, a2, t2, hb⟩ := hc.binding
  exact ⟨_, _, forall₂_fun_iff (canOpenGroup_iff (he.cyclic1 _ h0.1) hb.u) _,
    forall₂_fun_iff (canOpenScalar_iff' h0.2 (he.cyclic2 _ h0.2) hb.v) _, MSMEG1.extract he h0 hb h⟩

/-- C07. -/
theorem C07_msmeg2_sound (e : G1 →ₗ[F] G2 →ₗ[F] GT) (he : PrimeGroups e) (crs : CRS G1 G2 GT)
    (hc : GeneratedCrs e crs) (h0 : crs.NonzeroGens) (equ : MSMEG2 F G2) (cp : CProof F G1 G2) (sch : Scheduler)
    (h : equ.verify e sch cp crs = .ok true) :
    ∃ (x : List F) (y : List G2),
      (∀ x', List.Forall₂ (CanOpenScalar crs.u crs.g1_gen) cp.xcoms.coms x' ↔ x' = x) ∧
      (∀ y', List.Forall₂ (CanOpenGroup F crs.v) cp.ycoms.coms y' ↔ y' = y) ∧ equ.Holds x y := by
  obtain ⟨a1, t1, a2, t2, hb⟩ := hc.binding
  exact ⟨_, _, forall₂_fun_iff (canOpenScalar_iff' h0.1 (he.cyclic1 _ h0.1) hb.u) _,
    forall₂_fun_iff (canOpenGroup_iff (he.cyclic2 _ h0.2) hb.v) _, MSMEG2.extract he h0 hb h⟩

/-- C08. -/
theorem C08_quad_sound (e : G1 →ₗ[F] G2 →ₗ[F] GT) (he : PrimeGroups e) (crs : CRS G1 G2 GT)
    (hc : GeneratedCrs e crs) (h0 : crs.NonzeroGens) (equ : QuadEqu F) (cp : CProof F G1 G2) (sch : Scheduler)
    (h : equ.verify e sch cp crs = .ok true) :
    ∃ (x y : List F),
      (∀ x', List.Forall₂ (CanOpenScalar crs.u crs.g1_gen) cp.xcoms.coms x' ↔ x' = x) ∧
      (∀ y', List.Forall₂ (CanOpenScalar crs.v crs.g2_gen) cp.ycoms.coms y' ↔ y' = y) ∧ equ.Holds x y := by
  obtain ⟨a1, t1, a2, t2, hb⟩ := hc.binding
  exact ⟨_, _, forall₂_fun_iff (canOpenScalar_iff' h0.1 (he.cyclic1 _ h0.1) hb.u) _,
    forall₂_fun_iff (canOpenScalar_iff' h0.2 (he.cyclic2 _ h0.2) hb.v) _, QuadEqu.extract he h0 hb h⟩

example := C05_ppe_sound Ex.e7 Ex.prime7 Ex.crs7 Ex.crs7_generated Ex.crs7_nonzero Ex.ppe7 Ex.ppe7_msg seqSched Ex.ppe7_accepted
example := C06_msmeg1_sound Ex.e7 Ex.prime7 Ex.crs7 Ex.crs7_generated Ex.crs7_nonzero Ex.msm1_7 Ex.msm1_7_msg seqSched Ex.msm1_7_accepted
example := C07_msmeg2_sound Ex.e7 Ex.prime7 Ex.crs7 Ex.crs7_generated Ex.crs7_nonzero Ex.msm2_7 Ex.msm2_7_msg seqSched Ex.msm2_7_accepted
example := C08_quad_sound Ex.e7 Ex.prime7 Ex.crs7 Ex.crs7_generated Ex.crs7_nonzero Ex.quad7 Ex.quad7_msg seqSched Ex.quad7_accepted

/-- The hypotheses of C05–C08 can be met: accepted proofs exist. -/
example : ∃ cp, Ex.ppe7.verify Ex.e7 seqSched cp Ex.crs7 = .ok true :=
  let ⟨cp, _, _, h⟩ := C01_ppe_complete Ex.e7 Ex.ppe7 [2] [3, 4] Ex.crs7 (0 : Nat) (fun _ => seqSched) seqSched
    (by simp) (by simp) Ex.ppe7_dims rfl rfl Ex.ppe7_holds
  ⟨cp, h⟩
example : ∃ cp, Ex.msm1_7.verify Ex.e7 seqSched cp Ex.crs7 = .ok true :=
  let ⟨cp, _, _, h⟩ := C02_msmeg1_complete Ex.e7 Ex.msm1_7 [2] [3, 4] Ex.crs7 (0 : Nat) (fun _ => seqSched) seqSched
    (by simp) (by simp) Ex.msm1_7_dims rfl rfl Ex.msm1_7_holds
  ⟨cp, h⟩
example : ∃ cp, Ex.msm2_7.verify Ex.e7 seqSched cp Ex.crs7 = .ok true :=
  let ⟨cp, _, _, h⟩ := C03_msmeg2_complete Ex.e7 Ex.msm2_7 [2] [3, 4] Ex.crs7 (0 : Nat) (fun _ => seqSched) seqSched
    (by simp) (by simp) Ex.msm2_7_dims rfl rfl Ex.msm2_7_holds
  ⟨cp, h⟩
example : ∃ cp, Ex.quad7.verify Ex.e7 seqSched cp Ex.crs7 = .ok true :=
  let ⟨cp, _, _, h⟩ := C04_quad_complete Ex.e7 Ex.quad7 [2] [3, 4] Ex.crs7 (0 : Nat) (fun _ => seqSched) seqSched
    (by simp) (by simp) Ex.quad7_dims rfl rfl Ex.quad7_holds
  ⟨cp, h⟩
example : PrimeGroups Ex.e7 ∧ GeneratedCrs Ex.e7 Ex.crs7 ∧ Ex.crs7.NonzeroGens :=
  ⟨Ex.prime7, Ex.crs7_generated, Ex.crs7_nonzero⟩

/-! ### Binding -/

section binding
variable {ρ ρ' : Type} [Rng ρ F G1 G2] [Rng ρ' F G1 G2]

theorem zipWith_inj_left {α β γ δ : Type} {f : α → β → γ} (p : γ → δ) {k : α → δ} (hp : ∀ a b, p (f a b) = k a)
    (hk : Function.Injective k) {x x' : List α} {r r' : List β} (hl : r.length = x.length)
    (hl' : r'.length = x'.length) (h : List.zipWith f x r = List.zipWith f x' r') : x = x' := by
  induction x generalizing x' r r' with
  | nil =>
    cases x' with
    | nil => rfl
    | cons a x' => cases r' with
      | nil => simp at hl'
      | cons b r' => simp at h
  | cons a x ih =>
    cases r with
    | nil => simp at hl
    | cons b r =>
    cases x' with
    | nil => simp at h
    | cons a' x' => cases r' with
      | nil => simp at hl'
      | cons b' r' =>
        simp only [List.zipWith_cons_cons, List.cons.injEq] at h
        have : a = a' := hk (by rw [← hp a b, ← hp a' b', h.1])
        rw [this, ih (by simpa using hl) (by simpa using hl') h.2]

theorem zipWith_inj_right {α β γ : Type} {f : α → β → γ} (hf : ∀ a, Function.Injective (f a))
    {x : List α} {r r' : List β} (hl : r.length = x.length)
    (hl' : r'.length = x.length) (h : List.zipWith f x r = List.zipWith f x r') : r = r' := by
  induction x generalizing r r' with
  | nil => rw [List.length_eq_zero_iff.mp hl, List.length_eq_zero_iff.mp hl']
  | cons a x ih =>
    cases r with
    | nil => simp at hl
    | cons b r => cases r' with
      | nil => simp at hl'
      | cons b' r' =>
        simp only [List.zipWith_cons_cons, List.cons.injEq] at h
        rw [hf a h.1, ih (by simpa using hl) (by simpa using hl') h.2]

/-- C10, `batch_commit_G1`.  The generator need not be nonzero. -/
theorem C10_batch_commit_G1_binding (e : G1 →ₗ[F] G2 →ₗ[F] GT) (crs : CRS G1 G2 GT) (hc : GeneratedCrs e crs)
    (x x' : List G1) (rng r : ρ) (rng' r' : ρ') (c c' : Commit F G1)
    (h : batchCommitG1 x crs rng = .ok (c, r)) (h' : batchCommitG1 x' crs rng' = .ok (c', r'))
    (heq : c.coms = c'.coms) : x = x' := by
  obtain ⟨a1, t1, a2, t2, hb⟩ := hc.binding
  obtain ⟨-, u0, u1, hu, h⟩ := batchCommitG1_iff.mp h
  obtain ⟨-, u0', u1', hu', h'⟩ := batchCommitG1_iff.mp h'
  rw [hb.u] at hu hu'; cases hu; cases hu'
  cases h; cases h'
  exact zipWith_inj_left (proj a1) (k := id)
    (fun a b => by simp [Com1.linearMap, proj_lin, proj_key0, proj_key1]) Function.injective_id
    (drawPairs_length _ _ _) (drawPairs_length _ _ _) heq

/-- C10, `commit_G1`. -/
theorem C10_commit_G1_binding (e : G1 →ₗ[F] G2 →ₗ[F] GT) (crs : CRS G1 G2 GT) (hc : GeneratedCrs e crs)
    (x x' : G1) (rng r : ρ) (rng' r' : ρ') (c c' : Commit F G1)
    (h : commitG1 x crs rng = .ok (c, r)) (h' : commitG1 x' crs rng' = .ok (c', r'))
    (heq : c.coms = c'.coms) : x = x' := by
  obtain ⟨a1, t1, a2, t2, hb⟩ := hc.binding
  obtain ⟨u0, u1, _, hu, h⟩ := commitG1_iff.mp h
  obtain ⟨u0', u1', _, hu', h'⟩ := commitG1_iff.mp h'
  rw [hb.u] at hu hu'; cases hu; cases hu'
  cases h; cases h'
  have := congrArg (proj a1) (List.cons.inj heq).1
  simpa [Com1.linearMap, proj_lin, proj_key0, proj_key1] using this

/-- C10, `batch_commit_G2`. -/
theorem C10_batch_commit_G2_binding (e : G1 →ₗ[F] G2 →ₗ[F] GT) (crs : CRS G1 G2 GT) (hc : GeneratedCrs e crs)
    (x x' : List G2) (rng r : ρ) (rng' r' : ρ') (c c' : Commit F G2)
    (h : batchCommitG2 x crs rng = .ok (c, r)) (h' : batchCommitG2 x' crs rng' = .ok (c', r'))
    (heq : c.coms = c'.coms) : x = x' := by
  obtain ⟨a1, t1, a2, t2, hb⟩ := hc.binding
  obtain ⟨-, u0, u1, hu, h⟩ := batchCommitG2_iff.mp h
  obtain ⟨-, u0', u1', hu', h'⟩ := batchCommitG2_iff.mp h'
  rw [hb.v] at hu hu'; cases hu; cases hu'
  cases h; cases h'
  exact zipWith_inj_left (proj a2) (k := id)
    (fun a b => by simp [Com2.linearMap, proj_lin, proj_key0, proj_key1]) Function.injective_id
    (drawPairs_length _ _ _) (drawPairs_length _ _ _) heq

/-- C10, `commit_G2`. -/
theorem C10_commit_G2_binding (e : G1 →ₗ[F] G2 →ₗ[F] GT) (crs : CRS G1 G2 GT) (hc : GeneratedCrs e crs)
    (x x' : G2) (rng r : ρ) (rng' r' : ρ') (c c' : Commit F G2)
    (h : commitG2 x crs rng = .ok (c, r)) (h' : commitG2 x' crs rng' = .ok (c', r'))
    (heq : c.coms = c'.coms) : x = x' := by
  obtain ⟨a1, t1, a2, t2, hb⟩ := hc.binding
  obtain ⟨u0, u1, _, hu, h⟩ := commitG2_iff.mp h
  obtain ⟨u0', u1', _, hu', h'⟩ := commitG2_iff.mp h'
  rw [hb.v] at hu hu'; cases hu; cases hu'
  cases h; cases h'
  have := congrArg (proj a2) (List.cons.inj heq).1
  simpa [Com2.linearMap, proj_lin, proj_key0, proj_key1] using this

/-- C11, `batch_commit_scalar_to_B1`: value and randomness are determined. -/
theorem C11_batch_commit_scalar_B1_binding (e : G1 →ₗ[F] G2 →ₗ[F] GT) (crs : CRS G1 G2 GT)
    (hc : GeneratedCrs e crs) (h0 : crs.g1_gen ≠ 0)
    (x x' : List F) (rng r : ρ) (rng' r' : ρ') (c c' : Commit F G1)
    (h : batchCommitScalarToB1 x crs rng = .ok (c, r)) (h' : batchCommitScalarToB1 x' crs rng' = .ok (c', r'))
    (heq : c.coms = c'.coms) : x = x' ∧ c.rand = c'.rand := by
  obtain ⟨a1, t1, a2, t2, hb⟩ := hc.binding
  obtain ⟨-, u0, u1, _, hu, h⟩ := batchCommitScalarToB1_iff.mp h
  obtain ⟨-, u0', u1', _, hu', h'⟩ := batchCommitScalarToB1_iff.mp h'
  rw [hb.u] at hu hu'; cases hu; cases hu'
  cases h; cases h'
  have hx : x = x' := zipWith_inj_left (proj a1) (k := fun x => x • crs.g1_gen)
    (fun a b => by simp [Com1.linearMap, proj_lin, proj_key0, proj_key1]) (smul_left_injective F h0)
    (drawF_length _ _ _) (drawF_length _ _ _) heq
  subst hx
  refine ⟨rfl, ?_⟩
  have := zipWith_inj_right (fun a b b' hbb => by
    have := congrArg Com.c0 (add_left_cancel hbb)
    exact smul_left_injective F h0 this) (drawF_length _ _ _) (drawF_length _ _ _) heq
  rw [this]

/-- C11, `commit_scalar_to_B1`. -/
theorem C11_commit_scalar_B1_binding (e : G1 →ₗ[F] G2 →ₗ[F] GT) (crs : CRS G1 G2 GT)
    (hc : GeneratedCrs e crs) (h0 : crs.g1_gen ≠ 0)
    (x x' : F) (rng r : ρ) (rng' r' : ρ') (c c' : Commit F G1)
    (h : commitScalarToB1 x crs rng = .ok (c, r)) (h' : commitScalarToB1 x' crs rng' = .ok (c', r'))
    (heq : c.coms = c'.coms) : x = x' ∧ c.rand = c'.rand := by
  obtain ⟨a1, t1, a2, t2, hb⟩ := hc.binding
  obtain ⟨u0, u1, _, hu, h⟩ := commitScalarToB1_iff.mp h
  obtain ⟨u0', u1', _, hu', h'⟩ := commitScalarToB1_iff.mp h'
  rw [hb.u] at hu hu'; cases hu; cases hu'
  cases h; cases h'
  have heq := (List.cons.inj heq).1
  have hx : x = x' := by
    have := congrArg (proj a1) heq
    simp only [Com1.linearMap, map_add, map_smul, proj_lin, proj_key0, proj_key1, zero_add, smul_zero, add_zero] at this
    exact smul_left_injective F h0 this
  subst hx
  have := smul_left_injective F h0 (congrArg Com.c0 (add_left_cancel heq))
  exact ⟨rfl, by rw [this]⟩

/-- C11, `batch_commit_scalar_to_B2`. -/
theorem C11_batch_commit_scalar_B2_binding (e : G1 →ₗ[F] G2 →ₗ[F] GT) (crs : CRS G1 G2 GT)
    (hc : GeneratedCrs e crs) (h0 : crs.g2_gen ≠ 0)
    (x x' : List F) (rng r : ρ) (rng' r' : ρ') (c c' : Commit F G2)
    (h : batchCommitScalarToB2 x crs rng = .ok (c, r)) (h' : batchCommitScalarToB2 x' crs rng' = .ok (c', r'))
    (heq : c.coms = c'.coms) : x = x' ∧ c.rand = c'.rand := by
  obtain ⟨a1, t1, a2, t2, hb⟩ := hc.binding
  obtain ⟨-, u0, u1, _, hu, h⟩ := batchCommitScalarToB2_iff.mp h
  obtain ⟨-, u0', u1', _, hu', h'⟩ := batchCommitScalarToB2_iff.mp h'
  rw [hb.v] at hu hu'; cases hu; cases hu'
  cases h; cases h'
  have hx : x = x' := zipWith_inj_left (proj a2) (k := fun x => x • crs.g2_gen)
    (fun a b => by simp [Com2.linearMap, proj_lin, proj_key0, proj_key1]) (smul_left_injective F h0)
    (drawF_length _ _ _) (drawF_length _ _ _) heq
  subst hx
  refine ⟨rfl, ?_⟩
  have := zipWith_inj_right (fun a b b' hbb => by
    have := congrArg Com.c0 (add_left_cancel hbb)
    exact smul_left_injective F h0 this) (drawF_length _ _ _) (drawF_length _ _ _) heq
  rw [this]

/-- C11, `commit_scalar_to_B2`. -/
theorem C11_commit_scalar_B2_binding (e : G1 →ₗ[F] G2 →ₗ[F] GT) (crs : CRS G1 G2 GT)
    (hc : GeneratedCrs e crs) (h0 : crs.g2_gen ≠ 0)
    (x x' : F) (rng r : ρ) (rng' r' : ρ') (c c' : Commit F G2)
    (h : commitScalarToB2 x crs rng = .ok (c, r)) (h' : commitScalarToB2 x' crs rng' = .ok (c', r'))
    (heq : c.coms = c'.coms) : x = x' ∧ c.rand = c'.rand := by
  obtain ⟨a1, t1, a2, t2, hb⟩ := hc.binding
  obtain ⟨u0, u1, _, hu, h⟩ := commitScalarToB2_iff.mp h
  obtain ⟨u0', u1', _, hu', h'⟩ := commitScalarToB2_iff.mp h'
  rw [hb.v] at hu hu'; cases hu; cases hu'
  cases h; cases h'
  have heq := (List.cons.inj heq).1
  have hx : x = x' := by
    have := congrArg (proj a2) heq
    simp only [Com2.linearMap, map_add, map_smul, proj_lin, proj_key0, proj_key1, zero_add, smul_zero, add_zero] at this
    exact smul_left_injective F h0 this
  subst hx
  have := smul_left_injective F h0 (congrArg Com.c0 (add_left_cancel heq))
  exact ⟨rfl, by rw [this]⟩

/-- Two calls with different generator states on one value satisfy the hypotheses of C10 up to `heq`, which
holds for equal states. -/
example : ∃ c r, batchCommitG1 (F := Ex.K) [2, 3] Ex.crs7 (0 : Nat) = .ok (c, r) := by
  obtain ⟨c, r, h, -⟩ := batchCommitG1_opens (F := Ex.K) (x := [2, 3]) (key := Ex.crs7) (rng := (0 : Nat)) (by simp) rfl
  exact ⟨c, r, h⟩
example : ∃ c r, batchCommitScalarToB1 (F := Ex.K) [2, 3] Ex.crs7 (0 : Nat) = .ok (c, r) := by
  obtain ⟨c, r, h, -⟩ := batchCommitScalarToB1_opens (F := Ex.K) (x := [2, 3]) (key := Ex.crs7) (rng := (0 : Nat))
    (by simp) (by decide)
  exact ⟨c, r, h⟩

end binding

/-- C12.  One assignment of values to commitments, determined by the CRS alone, satisfies every equation of every
type for which an accepted proof exists. -/
theorem C12_joint_soundness (e : G1 →ₗ[F] G2 →ₗ[F] GT) (he : PrimeGroups e) (crs : CRS G1 G2 GT)
    (hc : GeneratedCrs e crs) (h0 : crs.NonzeroGens) :
    ∃ (X : Com G1 → G1) (x : Com G1 → F) (Y : Com G2 → G2) (y : Com G2 → F),
      (∀ c v, CanOpenGroup F crs.u c v ↔ v = X c) ∧ (∀ c v, CanOpenScalar crs.u crs.g1_gen c v ↔ v = x c) ∧
      (∀ c v, CanOpenGroup F crs.v c v ↔ v = Y c) ∧ (∀ c v, CanOpenScalar crs.v crs.g2_gen c v ↔ v = y c) ∧
      (∀ (equ : PPE F G1 G2 GT) (cp : CProof F G1 G2) (sch : Scheduler), equ.verify e sch cp crs = .ok true →
        equ.Holds e (cp.xcoms.coms.map X) (cp.ycoms.coms.map Y)) ∧
      (∀ (equ : MSMEG1 F G1) (cp : CProof F G1 G2) (sch : Scheduler), equ.verify e sch cp crs = .ok true →
        equ.Holds (cp.xcoms.coms.map X) (cp.ycoms.coms.map y)) ∧
      (∀ (equ : MSMEG2 F G2) (cp : CProof F G1 G2) (sch : Scheduler), equ.verify e sch cp crs = .ok true →
        equ.Holds (cp.xcoms.coms.map x) (cp.ycoms.coms.map Y)) ∧
      (∀ (equ : QuadEqu F) (cp : CProof F G1 G2) (sch : Scheduler), equ.verify e sch cp crs = .ok true →
        equ.Holds (cp.xcoms.coms.map x) (cp.ycoms.coms.map y)) := by
  obtain ⟨a1, t1, a2, t2, hb⟩ := hc.binding
  exact ⟨_, _, _, _, canOpenGroup_iff (he.cyclic1 _ h0.1) hb.u, canOpenScalar_iff' h0.1 (he.cyclic1 _ h0.1) hb.u,
    canOpenGroup_iff (he.cyclic2 _ h0.2) hb.v, canOpenScalar_iff' h0.2 (he.cyclic2 _ h0.2) hb.v,
    fun equ cp sch h => PPE.extract hb h, fun equ cp sch h => MSMEG1.extract he h0 hb h,
    fun equ cp sch h => MSMEG2.extract he h0 hb h, fun equ cp sch h => QuadEqu.extract he h0 hb h⟩

/-! ### C45 -/

theorem verifyCore_target {e : G1 →ₗ[F] G2 →ₗ[F] GT} {sch sch' : Scheduler} {gamma : Matrix F}
    {la : Res (List (Com G1))} {lb : Res (List (Com G2))} {c : List (Com G1)} {d : List (Com G2)}
    {lt lt' p1 p2 : Res (ComT GT)} (h : verifyCore e sch gamma la lb c d lt p1 p2 = .ok true)
    (h' : verifyCore e sch' gamma la lb c d lt' p1 p2 = .ok true) : ∃ t, lt = .ok t ∧ lt' = .ok t := by
  obtain ⟨a, b, t, q1, q2, ha, hb, ht, hq1, hq2, -, -, -, hr⟩ := verifyCore_iff.mp h
  obtain ⟨a', b', t', q1', q2', ha', hb', ht', hq1', hq2', -, -, -, hr'⟩ := verifyCore_iff.mp h'
  subst ha hb hq1 hq2
  cases ha'; cases hb'; cases hq1'; cases hq2'
  have hr := of_decide_eq_true hr.symm
  have hr' := of_decide_eq_true hr'.symm
  rw [hr] at hr'
  exact ⟨t, ht, by rw [ht', ← add_right_cancel (add_right_cancel hr')]⟩

/-- C45, PPE: any CRS. -/
theorem C45_ppe_target (e : G1 →ₗ[F] G2 →ₗ[F] GT) (crs : CRS G1 G2 GT) (equ : PPE F G1 G2 GT) (z : GT)
    (cp : CProof F G1 G2) (sch sch' : Scheduler) (h : equ.verify e sch cp crs = .ok true)
    (h' : ({ equ with target := z } : PPE F G1 G2 GT).verify e sch' cp crs = .ok true) : equ.target = z := by
  obtain ⟨pf, hp, -, h⟩ := (PPE.verify_iff e sch).mp h
  obtain ⟨pf', hp', -, h'⟩ := (PPE.verify_iff e sch').mp h'
  rw [hp] at hp'; cases hp'
  obtain ⟨t, h1, h2⟩ := verifyCore_target h h'
  rw [← h2] at h1
  exact congrArg ComT.t3 (Except.ok.inj h1)

/-- C45, MSMEG1. -/
theorem C45_msmeg1_target (e : G1 →ₗ[F] G2 →ₗ[F] GT) (he : PrimeGroups e) (crs : CRS G1 G2 GT)
    (hc : GeneratedCrs e crs) (h0 : crs.NonzeroGens) (equ : MSMEG1 F G1) (z : G1)
    (cp : CProof F G1 G2) (sch sch' : Scheduler) (h : equ.verify e sch cp crs = .ok true)
    (h' : ({ equ with target := z } : MSMEG1 F G1).verify e sch' cp crs = .ok true) : equ.target = z := by
  obtain ⟨pf, hp, -, h⟩ := (MSMEG1.verify_iff e sch).mp h
  obtain ⟨pf', hp', -, h'⟩ := (MSMEG1.verify_iff e sch').mp h'
  rw [hp] at hp'; cases hp'
  obtain ⟨t, h1, h2⟩ := verifyCore_target h h'
  obtain ⟨w, hw, rfl⟩ := linearMapMSMEG1_iff.mp h1
  obtain ⟨w', hw', h2⟩ := linearMapMSMEG1_iff.mp h2
  obtain ⟨v0, v1, hv⟩ := List.length_eq_two.mp hc.length_v
  rw [hv] at hw hw'; cases hw; cases hw'
  exact hc.tMSMEG1_inj he h0 hv h2

/-- C45, MSMEG2. -/
theorem C45_msmeg2_target (e : G1 →ₗ[F] G2 →ₗ[F] GT) (he : PrimeGroups e) (crs : CRS G1 G2 GT)
    (hc : GeneratedCrs e crs) (h0 : crs.NonzeroGens) (equ : MSMEG2 F G2) (z : G2)
    (cp : CProof F G1 G2) (sch sch' : Scheduler) (h : equ.verify e sch cp crs = .ok true)
    (h' : ({ equ with target := z } : MSMEG2 F G2).verify e sch' cp crs = .ok true) : equ.target = z := by
  obtain ⟨pf, hp, -, h⟩ := (MSMEG2.verify_iff e sch).mp h
  obtain ⟨pf', hp', -, h'⟩ := (MSMEG2.verify_iff e sch').mp h'
  rw [hp] at hp'; cases hp'
  obtain ⟨t, h1, h2⟩ := verifyCore_target h h'
  obtain ⟨w, hw, rfl⟩ := linearMapMSMEG2_iff.mp h1
  obtain ⟨w', hw', h2⟩ := linearMapMSMEG2_iff.mp h2
  obtain ⟨v0, v1, hv⟩ := List.length_eq_two.mp hc.length_u
  rw [hv] at hw hw'; cases hw; cases hw'
  exact hc.tMSMEG2_inj he h0 hv h2

/-- C45, QuadEqu. -/
theorem C45_quad_target (e : G1 →ₗ[F] G2 →ₗ[F] GT) (he : PrimeGroups e) (crs : CRS G1 G2 GT)
    (hc : GeneratedCrs e crs) (h0 : crs.NonzeroGens) (equ : QuadEqu F) (z : F)
    (cp : CProof F G1 G2) (sch sch' : Scheduler) (h : equ.verify e sch cp crs = .ok true)
    (h' : ({ equ with target := z } : QuadEqu F).verify e sch' cp crs = .ok true) : equ.target = z := by
  obtain ⟨pf, hp, -, h⟩ := (QuadEqu.verify_iff e sch).mp h
  obtain ⟨pf', hp', -, h'⟩ := (QuadEqu.verify_iff e sch').mp h'
  rw [hp] at hp'; cases hp'
  obtain ⟨t, h1, h2⟩ := verifyCore_target h h'
  obtain ⟨w, z, hw, hz, rfl⟩ := linearMapQuad_iff.mp h1
  obtain ⟨w', z', hw', hz', h2⟩ := linearMapQuad_iff.mp h2
  obtain ⟨u0, u1, hu⟩ := List.length_eq_two.mp hc.length_u
  obtain ⟨v0, v1, hv⟩ := List.length_eq_two.mp hc.length_v
  rw [hu] at hw hw'; cases hw; cases hw'
  rw [hv] at hz hz'; cases hz; cases hz'
  exact hc.tQuad_inj he h0 hu hv h2

/-! ### Instances: the counter gives the same field elements from 1 and from 8 -/

namespace Ex

example := C10_batch_commit_G1_binding (F := K) e7 crs7 crs7_generated [3, 4] [3, 4] (1 : Nat) _ (8 : Nat) _ _ _ rfl rfl rfl
example := C10_batch_commit_G2_binding (F := K) e7 crs7 crs7_generated [3, 4] [3, 4] (1 : Nat) _ (8 : Nat) _ _ _ rfl rfl rfl
example := C11_batch_commit_scalar_B1_binding (F := K) e7 crs7 crs7_generated crs7_nonzero.1 [3, 4] [3, 4] (1 : Nat) _ (8 : Nat) _ _ _ rfl rfl rfl
example := C11_batch_commit_scalar_B2_binding (F := K) e7 crs7 crs7_generated crs7_nonzero.2 [3, 4] [3, 4] (1 : Nat) _ (8 : Nat) _ _ _ rfl rfl rfl
example := C10_commit_G1_binding (F := K) e7 crs7 crs7_generated 3 3 (1 : Nat) _ (8 : Nat) _ _ _ rfl rfl rfl
example := C10_commit_G2_binding (F := K) e7 crs7 crs7_generated 3 3 (1 : Nat) _ (8 : Nat) _ _ _ rfl rfl rfl
example := C11_commit_scalar_B1_binding (F := K) e7 crs7 crs7_generated crs7_nonzero.1 3 3 (1 : Nat) _ (8 : Nat) _ _ _ rfl rfl rfl
example := C11_commit_scalar_B2_binding (F := K) e7 crs7 crs7_generated crs7_nonzero.2 3 3 (1 : Nat) _ (8 : Nat) _ _ _ rfl rfl rfl
example := C12_joint_soundness e7 prime7 crs7 crs7_generated crs7_nonzero
example := C45_ppe_target e7 crs7 ppe7 1 ppe7_msg seqSched seqSched ppe7_accepted ppe7_accepted
example := C45_msmeg1_target e7 prime7 crs7 crs7_generated crs7_nonzero msm1_7 1 msm1_7_msg seqSched seqSched msm1_7_accepted msm1_7_accepted
example := C45_msmeg2_target e7 prime7 crs7 crs7_generated crs7_nonzero msm2_7 1 msm2_7_msg seqSched seqSched msm2_7_accepted msm2_7_accepted
example := C45_quad_target e7 prime7 crs7 crs7_generated crs7_nonzero quad7 1 quad7_msg seqSched seqSched quad7_accepted quad7_accepted

end Ex

end GS
