import Verif.Lemmas.Tests
import Verif.Lemmas.Unwind
import Verif.Props.Commitments

/-!
# The tests about pairings, keys, equations and commitments
-/

set_option linter.unusedSectionVars false
set_option linter.unusedSimpArgs false
namespace GS.Tests
open GS
section
variable {ρ F G1 G2 GT : Type} [Field F] [AddCommGroup G1] [Module F G1] [AddCommGroup G2] [Module F G2]
  [AddCommGroup GT] [Module F GT] [DecidableEq F] [DecidableEq G1] [DecidableEq G2] [DecidableEq GT] [Rng ρ F G1 G2]
  (e : G1 →ₗ[F] G2 →ₗ[F] GT) (randT : ρ → GT × ρ) (s : ρ)

theorem g1_ok (F G1 G2 : Type) [Rng ρ F G1 G2] (s : ρ) : (g1 F G1 G2 s).Ok := ⟨_, rfl⟩
theorem g2_ok (F G1 G2 : Type) [Rng ρ F G1 G2] (s : ρ) : (g2 F G1 G2 s).Ok := ⟨_, rfl⟩
theorem fr_ok (F G1 G2 : Type) [Rng ρ F G1 G2] (s : ρ) : (fr F G1 G2 s).Ok := ⟨_, rfl⟩
theorem gt_ok (s : ρ) : (gt randT s).Ok := ⟨_, rfl⟩
theorem crs_ok (s : ρ) : (crsOf e s).Ok := ⟨_, rfl⟩

theorem wp_com1 {s : ρ} {Q : Com G1 → ρ → Prop} (h : ∀ a s', Q a s') : Wp (randCom (g1 F G1 G2)) s Q :=
  wp_randCom (g1_ok F G1 G2) h
theorem wp_com2 {s : ρ} {Q : Com G2 → ρ → Prop} (h : ∀ a s', Q a s') : Wp (randCom (g2 F G1 G2)) s Q :=
  wp_randCom (g2_ok F G1 G2) h

/-- A key with two elements on each side, as `generate_crs` makes it. -/
theorem wp_key {s : ρ} {Q : CRS G1 G2 GT → ρ → Prop} (h : ∀ (u0 u1 : Com G1) (v0 v1 : Com G2) p1 p2 pt s',
    Q ⟨[u0, u1], [v0, v1], p1, p2, pt⟩ s') : Wp (crsOf e) s Q := by
  rw [wp_crs]
  exact h ..

theorem pass_pairing_zero_G1 : Passes (test_B_pairing_zero_G1 ρ e) s := by
  rw [passes_iff]
  unfold test_B_pairing_zero_G1
  simp only [wp_bind, wp_assert, and_true, beq_iff_eq]
  exact wp_com2 fun a _ => by simp [ComT.pairing]

theorem pass_pairing_zero_G2 : Passes (test_B_pairing_zero_G2 ρ e) s := by
  rw [passes_iff]
  unfold test_B_pairing_zero_G2
  simp only [wp_bind, wp_assert, and_true, beq_iff_eq]
  exact wp_com1 fun a _ => by simp [ComT.pairing]

theorem pass_pairing_commit : Passes (test_B_pairing_commit ρ e) s := by
  rw [passes_iff]
  unfold test_B_pairing_commit
  simp only [wp_bind, wp_assert, and_true, beq_iff_eq, wp_g1, wp_g2]
  simp [ComT.pairing]

theorem pass_pairing_rand : Passes (test_B_pairing_rand ρ e) s := by
  rw [passes_iff]
  unfold test_B_pairing_rand
  simp only [wp_bind, wp_assert, and_true, beq_iff_eq]
  exact wp_com1 fun a _ => wp_com2 fun b _ => by simp [ComT.pairing]

theorem pass_pairing_sum : Passes (test_B_pairing_sum ρ e) s := by
  rw [passes_iff]
  unfold test_B_pairing_sum
  simp only [wp_bind, wp_assert, and_true]
  refine wp_com1 fun a _ => wp_com1 fun b _ => wp_com2 fun c _ => wp_com2 fun d _ => ?_
  have h : ComT.pairingSum e [a, b] [c, d] = .ok (rustSum [ComT.pairing e a c, ComT.pairing e b d]) := rfl
  rw [h, wp_lift_ok, ComT.eq_iff]

theorem pass_into_matrix : Passes (test_B_into_matrix ρ e) s := by
  rw [passes_iff]
  unfold test_B_into_matrix
  simp only [wp_bind, wp_assert, and_true, C72_matrix]
  exact wp_com1 fun a _ => wp_com2 fun b _ => ⟨rfl, rfl, rfl⟩

theorem pass_from_matrix : Passes (test_B_from_matrix ρ e) s := by
  rw [passes_iff]
  unfold test_B_from_matrix
  simp only [wp_bind, wp_assert, and_true, beq_iff_eq, wp_g1, wp_g2]
  simp [wp_lift, idx2, Com.fromMatrix, ComT.fromMatrix]

theorem pass_batched_maps : Passes (test_batched_linear_maps (F := F) (G1 := G1) (G2 := G2) ρ) s := by
  rw [passes_iff]
  unfold test_batched_linear_maps
  simp only [wp_bind, wp_assert, and_true, wp_g1, wp_g2, Com.eq_iff]
  simp [wp_lift, Com1.batchLinearMap, Com2.batchLinearMap]

theorem pass_batched_scalar_maps : Passes (test_batched_scalar_linear_maps ρ e) s := by
  rw [passes_iff]
  unfold test_batched_scalar_linear_maps
  simp only [wp_bind, wp_assert, and_true, wp_fr, Com.eq_iff]
  refine wp_key e fun u0 u1 v0 v1 p1 p2 pt s' => ?_
  simp [wp_lift, Com1.batchScalarLinearMap, Com2.batchScalarLinearMap, Com1.scalarLinearMap, Com2.scalarLinearMap, collect]

theorem pass_PPE_maps : Passes (test_PPE_linear_maps ρ e) s := by
  rw [passes_iff]
  unfold test_PPE_linear_maps
  simp only [wp_bind, wp_assert, and_true, wp_g1, wp_g2, beq_iff_eq]
  simp [Com1.linearMap, Com2.linearMap, ComT.linearMapPPE]

theorem pass_MSMEG1_maps : Passes (test_MSMEG1_linear_maps ρ e) s := by
  rw [passes_iff]
  unfold test_MSMEG1_linear_maps
  simp only [wp_bind, wp_assert, and_true, wp_g1, wp_g2, wp_fr, beq_iff_eq]
  refine wp_key e fun u0 u1 v0 v1 p1 p2 pt s' => ?_
  simp [wp_lift, Com1.scalarLinearMap, Com2.scalarLinearMap, Com.scalarMul_eq, Com1.linearMap, Com2.linearMap,
    ComT.linearMapMSMEG1, ComT.pairing]

theorem pass_MSMEG2_maps : Passes (test_MSMEG2_linear_maps ρ e) s := by
  rw [passes_iff]
  unfold test_MSMEG2_linear_maps
  simp only [wp_bind, wp_assert, and_true, wp_g1, wp_g2, wp_fr, beq_iff_eq]
  refine wp_key e fun u0 u1 v0 v1 p1 p2 pt s' => ?_
  simp [wp_lift, Com1.scalarLinearMap, Com2.scalarLinearMap, Com.scalarMul_eq, Com1.linearMap, Com2.linearMap,
    ComT.linearMapMSMEG2, ComT.pairing]

theorem pass_QuadEqu_maps : Passes (test_QuadEqu_linear_maps ρ e) s := by
  rw [passes_iff]
  unfold test_QuadEqu_linear_maps
  simp only [wp_bind, wp_assert, and_true, wp_g1, wp_g2, wp_fr, beq_iff_eq, ComT.eq_iff]
  refine wp_key e fun u0 u1 v0 v1 p1 p2 pt s' => ?_
  simp [wp_lift, Com1.scalarLinearMap, Com2.scalarLinearMap, Com.scalarMul_eq, Com1.linearMap, Com2.linearMap,
    ComT.linearMapQuad, ComT.pairing, mul_smul]
  constructorm* _ ∧ _ <;> module

theorem pass_PPE_comm : Passes (PPE_linear_bilinear_map_commutativity ρ e) s := by
  rw [passes_iff]
  unfold PPE_linear_bilinear_map_commutativity
  simp only [wp_bind, wp_assert, and_true, wp_g1, wp_g2, ComT.eq_iff]
  simp [Com1.linearMap, Com2.linearMap, ComT.linearMapPPE, ComT.pairing]

theorem pass_MSMEG1_comm : Passes (MSMEG1_linear_bilinear_map_commutativity ρ e) s := by
  rw [passes_iff]
  unfold MSMEG1_linear_bilinear_map_commutativity
  simp only [wp_bind, wp_assert, and_true, wp_g1, wp_g2, wp_fr, ComT.eq_iff]
  refine wp_key e fun u0 u1 v0 v1 p1 p2 pt s' => ?_
  simp [wp_lift, Com1.scalarLinearMap, Com2.scalarLinearMap, Com.scalarMul_eq, Com1.linearMap, Com2.linearMap,
    ComT.linearMapMSMEG1, ComT.pairing]

theorem pass_MSMEG2_comm : Passes (MSMEG2_linear_bilinear_map_commutativity ρ e) s := by
  rw [passes_iff]
  unfold MSMEG2_linear_bilinear_map_commutativity
  simp only [wp_bind, wp_assert, and_true, wp_g1, wp_g2, wp_fr, ComT.eq_iff]
  refine wp_key e fun u0 u1 v0 v1 p1 p2 pt s' => ?_
  simp [wp_lift, Com1.scalarLinearMap, Com2.scalarLinearMap, Com.scalarMul_eq, Com1.linearMap, Com2.linearMap,
    ComT.linearMapMSMEG2, ComT.pairing]

theorem pass_QuadEqu_comm : Passes (QuadEqu_linear_bilinear_map_commutativity ρ e) s := by
  rw [passes_iff]
  unfold QuadEqu_linear_bilinear_map_commutativity
  simp only [wp_bind, wp_assert, and_true, wp_g1, wp_g2, wp_fr, ComT.eq_iff]
  refine wp_key e fun u0 u1 v0 v1 p1 p2 pt s' => ?_
  simp [wp_lift, Com1.scalarLinearMap, Com2.scalarLinearMap, Com.scalarMul_eq, Com1.linearMap, Com2.linearMap,
    ComT.linearMapQuad, ComT.pairing, mul_smul]
  constructorm* _ ∧ _ <;> module

/-! ### src/generator.rs -/

theorem pass_valid_generators (hp : ∀ x y, e x y = 0 → x = 0 ∨ y = 0) {s s1 s2 : ρ} {p1 : G1} {p2 : G2}
    (h1 : Rng.randG1 F G2 s = (p1, s1)) (h2 : Rng.randG2 F G1 s1 = (p2, s2)) :
    Passes (test_valid_generators ρ e) s ↔ p1 ≠ 0 ∧ p2 ≠ 0 := by
  rw [passes_iff]
  unfold test_valid_generators
  simp only [wp_bind, wp_assert, and_true, wp_crs, beq_iff_eq, bne_iff_ne, generateCrs, assembleCrs, h1, h2]
  constructor
  · rintro ⟨-, h1, h2, -⟩; exact ⟨h1, h2⟩
  · rintro ⟨h1, h2⟩
    exact ⟨trivial, h1, h2, fun h => (hp _ _ h).elim h1 h2⟩

theorem pass_binding {s s1 s2 s3 s4 s5 s6 : ρ} {p1 : G1} {p2 : G2} {a1 a2 t1 t2 : F}
    (h1 : Rng.randG1 F G2 s = (p1, s1)) (h2 : Rng.randG2 F G1 s1 = (p2, s2)) (h3 : Rng.randF G1 G2 s2 = (a1, s3))
    (h4 : Rng.randF G1 G2 s3 = (a2, s4)) (h5 : Rng.randF G1 G2 s4 = (t1, s5)) (h6 : Rng.randF G1 G2 s5 = (t2, s6)) :
    Passes (test_valid_binding_CRS ρ e) (s, s) ↔ p1 ≠ 0 ∧ p2 ≠ 0 ∧ t1 ≠ 0 ∧ t2 ≠ 0 := by
  rw [passes_iff]
  unfold test_valid_binding_CRS
  simp only [wp_bind, wp_assert, and_true, wp_on1, wp_on2, wp_crs, wp_fr, wp_g1, wp_g2, beq_iff_eq, bne_iff_ne]
  simp only [generateCrs, assembleCrs, prepareRealBindingKey, wp_lift, idx_cons_zero, idx_cons_one, Except.ok.injEq,
    exists_eq_left', exists_eq_left, h1, h2, h3, h4, h5, h6]
  simp only [Bool.not_eq_true', ← Bool.not_eq_true, Com.eq_iff, Com.zero, Com.mk.injEq, sub_zero, smul_eq_zero]
  tauto

/-! ### Serialization of keys and statements -/

theorem crsEq_self (a : CRS G1 G2 GT) : crsEq a a = true := by simp [crsEq, C72_coms]

theorem small64 {α : Type} {l : List α} (h : l.length ≤ 2) : Fits64 l := by unfold Fits64; omega

theorem pass_CRS_serde {c1 : Codec G1} {c2 : Codec G2} {cT : Codec GT} (h1 : c1.Lawful) (h2 : c2.Lawful) (hT : cT.Lawful)
    (v1 : ∀ a, c1.Valid a) (v2 : ∀ a, c2.Valid a) (vT : ∀ a, cT.Valid a) : Passes (test_CRS_serde ρ e c1 c2 cT) s := by
  rw [passes_iff]
  unfold test_CRS_serde
  simp only [wp_bind, wp_lift]
  refine wp_key e fun u0 u1 w0 w1 p1 p2 pt s' => ⟨(), serde_ok (crsEq_self _) fun m => C41_crs h1 h2 hT m .Yes _
    ⟨small64 le_rfl, small64 le_rfl⟩ (fun _ => ?_) [], trivial⟩
  simp [CRS.Elems, Com.Elems, v1, v2, vT]

theorem pass_equtypes : test_equtypes_serde = .ok () := by decide

theorem pass_PPE_type : Passes (test_PPE_equation_type ρ e randT) s := by
  rw [passes_iff]
  unfold test_PPE_equation_type ppe11
  simp only [wp_bind, wp_assert, wp_fr, wp_gt, wp_crs, wp_pure, and_true]
  rfl

theorem pass_PPE_serde {cF : Codec F} {c1 : Codec G1} {c2 : Codec G2} {cT : Codec GT} (hF : cF.Lawful) (h1 : c1.Lawful)
    (h2 : c2.Lawful) (hT : cT.Lawful) (vF : ∀ a, cF.Valid a) (v1 : ∀ a, c1.Valid a) (v2 : ∀ a, c2.Valid a)
    (vT : ∀ a, cT.Valid a) : Passes (test_PPE_equation_serde ρ e randT cF c1 c2 cT) s := by
  rw [passes_iff]
  unfold test_PPE_equation_serde ppe11
  simp only [wp_bind, wp_lift, wp_fr, wp_gt, wp_crs, wp_pure]
  refine ⟨(), serde_ok ((C72_ppe _ _).mpr rfl) fun m => C41_ppe hF h1 h2 hT m .Yes _ ?_ (fun _ => ?_) [], trivial⟩
  · simp [PPE.Fits, FitsMat, Fits64]
  · simp [PPE.Elems, vF, v1, v2, vT]

theorem pass_MSMEG1_type : Passes (test_MSMEG1_equation_type ρ e) s := by
  rw [passes_iff]
  unfold test_MSMEG1_equation_type msmeg1_11
  simp only [wp_bind, wp_assert, wp_fr, wp_gt, wp_crs, wp_pure, and_true]
  rfl

theorem pass_MSMEG1_serde {cF : Codec F} {c1 : Codec G1} (hF : cF.Lawful) (h1 : c1.Lawful) (vF : ∀ a, cF.Valid a)
    (v1 : ∀ a, c1.Valid a) : Passes (test_MSMEG1_equation_serde ρ e cF c1) s := by
  rw [passes_iff]
  unfold test_MSMEG1_equation_serde msmeg1_11
  simp only [wp_bind, wp_lift, wp_fr, wp_gt, wp_crs, wp_pure]
  refine ⟨(), serde_ok ((C72_msmeg1 _ _).mpr rfl) fun m => C41_msmeg1 hF h1 m .Yes _ ?_ (fun _ => ?_) [], trivial⟩
  · simp [MSMEG1.Fits, FitsMat, Fits64]
  · simp [MSMEG1.Elems, vF, v1]

theorem pass_MSMEG2_type : Passes (test_MSMEG2_equation_type ρ e) s := by
  rw [passes_iff]
  unfold test_MSMEG2_equation_type msmeg2_11
  simp only [wp_bind, wp_assert, wp_fr, wp_gt, wp_crs, wp_pure, and_true]
  rfl

theorem pass_MSMEG2_serde {cF : Codec F} {c2 : Codec G2} (hF : cF.Lawful) (h2 : c2.Lawful) (vF : ∀ a, cF.Valid a)
    (v2 : ∀ a, c2.Valid a) : Passes (test_MSMEG2_equation_serde ρ e cF c2) s := by
  rw [passes_iff]
  unfold test_MSMEG2_equation_serde msmeg2_11
  simp only [wp_bind, wp_lift, wp_fr, wp_gt, wp_crs, wp_pure]
  refine ⟨(), serde_ok ((C72_msmeg2 _ _).mpr rfl) fun m => C41_msmeg2 hF h2 m .Yes _ ?_ (fun _ => ?_) [], trivial⟩
  · simp [MSMEG2.Fits, FitsMat, Fits64]
  · simp [MSMEG2.Elems, vF, v2]

theorem pass_quad_type : Passes (test_quadratic_equation_type ρ F G1 G2) s := by
  rw [passes_iff]
  unfold test_quadratic_equation_type quad11
  simp only [wp_bind, wp_assert, wp_fr, wp_gt, wp_crs, wp_pure, and_true]
  rfl

theorem pass_quad_serde {cF : Codec F} (hF : cF.Lawful) (vF : ∀ a, cF.Valid a) :
    Passes (test_quadratic_equation_serde ρ G1 G2 cF) s := by
  rw [passes_iff]
  unfold test_quadratic_equation_serde quad11
  simp only [wp_bind, wp_lift, wp_fr, wp_gt, wp_crs, wp_pure]
  refine ⟨(), serde_ok ((C72_quad _ _).mpr rfl) fun m => C41_quad hF m .Yes _ ?_ (fun _ => ?_) [], trivial⟩
  · simp [QuadEqu.Fits, FitsMat, Fits64]
  · simp [QuadEqu.Elems, vF]

/-! ### src/prover/commit.rs -/

theorem pass_commit_serde {cF : Codec F} {c1 : Codec G1} {c2 : Codec G2} (hF : cF.Lawful) (h1 : c1.Lawful)
    (h2 : c2.Lawful) (vF : ∀ a, cF.Valid a) (v1 : ∀ a, c1.Valid a) (v2 : ∀ a, c2.Valid a) :
    Passes (test_commit_serde ρ e cF c1 c2) s := by
  rw [passes_iff]
  unfold test_commit_serde
  simp only [wp_bind, wp_lift, wp_fr, wp_crs]
  refine ⟨(), serde_ok ((C72_commit _ _).2.mpr rfl) fun m => C41_commit hF h1 m .Yes _ ?_ (fun _ => ?_) [],
    (), serde_ok ((C72_commit _ _).2.mpr rfl) fun m => C41_commit hF h2 m .Yes _ ?_ (fun _ => ?_) [], trivial⟩
  · simp [Commit.Fits, FitsMat, Fits64]
  · simp [Commit.Elems, Com.Elems, vF, v1]
  · simp [Commit.Fits, FitsMat, Fits64]
  · simp [Commit.Elems, Com.Elems, vF, v2]

theorem pass_append1 : Passes (test_commit_append_com1 ρ e) s := by
  rw [passes_iff]
  unfold test_commit_append_com1
  simp only [wp_bind, wp_assert, wp_fr, wp_crs, and_true]
  rw [wp_lift]
  refine ⟨_, rfl, ?_, ?_⟩ <;> exact (C72_commit _ _).2.mpr rfl

theorem pass_append2 : Passes (test_commit_append_com2 ρ e) s := by
  rw [passes_iff]
  unfold test_commit_append_com2
  simp only [wp_bind, wp_assert, wp_fr, wp_crs, and_true]
  rw [wp_lift]
  refine ⟨_, rfl, ?_, ?_⟩ <;> exact (C72_commit _ _).2.mpr rfl

theorem batch_three {α : Type} {G : Type} [AddCommGroup G] [Module F G] {single : α → Prog ρ (Commit F G)} {x0 x1 x2 : α}
    {s : ρ} {batch : Res (Commit F G × ρ)} (hb : batch.Ok) (h : batch = commitEach single x0 [x1, x2] s) :
    ∃ c0 s1 c1 s2 c01 r1 c2 s3 c012 r2, single x0 s = .ok (c0, s1) ∧ single x1 s1 = .ok (c1, s2) ∧
      c0.append c1 = .ok (c01, r1) ∧ single x2 s2 = .ok (c2, s3) ∧ c01.append c2 = .ok (c012, r2) ∧ batch = .ok (c012, s3) := by
  obtain ⟨⟨c, s'⟩, hb⟩ := hb
  have h3 := hb
  rw [h, commitEach] at h3
  obtain ⟨⟨c0, s1⟩, h0, h4⟩ := bind_ok_iff.mp h3
  rw [foldRes_cons] at h4
  obtain ⟨⟨c01, s2⟩, h5, h6⟩ := bind_ok_iff.mp h4
  obtain ⟨⟨c1, s2'⟩, h7, h8⟩ := bind_ok_iff.mp h5
  obtain ⟨⟨c01', r1⟩, h9, h10⟩ := bind_ok_iff.mp h8
  cases h10
  rw [foldRes_cons] at h6
  obtain ⟨⟨c012, s3⟩, h11, h12⟩ := bind_ok_iff.mp h6
  obtain ⟨⟨c2, s3'⟩, h13, h14⟩ := bind_ok_iff.mp h11
  obtain ⟨⟨c012', r2⟩, h15, h16⟩ := bind_ok_iff.mp h14
  cases h16
  cases h12
  exact ⟨_, _, _, _, _, _, _, _, _, _, h0, h7, h9, h13, h15, hb⟩

theorem pass_batch_G1 : Passes (test_commit_G1_batching ρ e) (s, s) := by
  rw [passes_iff]
  unfold test_commit_G1_batching
  simp only [wp_bind, wp_assert, wp_on1, wp_on2, wp_fr, wp_crs, and_true, idx_cons_zero, idx_cons_one, wp_lift_ok,
    idx_cons_succ, beq_self_eq_true, true_and]
  obtain ⟨c0, s1, c1, s2, c01, r1, c2, s3, c012, r2, h0, h1, a1, h2, a2, hb⟩ :=
    batch_three (batchCommitG1_total.mpr ⟨by simp, rfl⟩) (C18_batch_G1 (F := F) (generateCrs e s).1 rfl
      (generateCrs e s).1.g1_gen [(2 : F) • (generateCrs e s).1.g1_gen, (3 : F) • (generateCrs e s).1.g1_gen]
      (Rng.randF (F := F) G1 G2 (generateCrs e s).2).2)
  rw [wp_ok h0, wp_ok h1, a1, wp_lift_ok, wp_ok h2, a2, wp_lift_ok]
  exact ⟨beq_self_eq_true _, _, _, hb, (C72_commit _ _).2.mpr rfl⟩

theorem pass_batch_G2 : Passes (test_commit_G2_batching ρ e) (s, s) := by
  rw [passes_iff]
  unfold test_commit_G2_batching
  simp only [wp_bind, wp_assert, wp_on1, wp_on2, wp_fr, wp_crs, and_true, idx_cons_zero, idx_cons_one, wp_lift_ok,
    idx_cons_succ, beq_self_eq_true, true_and]
  obtain ⟨c0, s1, c1, s2, c01, r1, c2, s3, c012, r2, h0, h1, a1, h2, a2, hb⟩ :=
    batch_three (batchCommitG2_total.mpr ⟨by simp, rfl⟩) (C18_batch_G2 (F := F) (generateCrs e s).1 rfl
      (generateCrs e s).1.g2_gen [(2 : F) • (generateCrs e s).1.g2_gen, (3 : F) • (generateCrs e s).1.g2_gen]
      (Rng.randF (F := F) G1 G2 (generateCrs e s).2).2)
  rw [wp_ok h0, wp_ok h1, a1, wp_lift_ok, wp_ok h2, a2, wp_lift_ok]
  exact ⟨beq_self_eq_true _, _, _, hb, (C72_commit _ _).2.mpr rfl⟩

theorem pass_batch_scalar_B1 : Passes (test_commit_scalar_B1_batching ρ e) (s, s) := by
  rw [passes_iff]
  unfold test_commit_scalar_B1_batching
  simp only [wp_bind, wp_assert, wp_on1, wp_on2, wp_fr, wp_crs, and_true, idx_cons_zero, idx_cons_one, wp_lift_ok,
    idx_cons_succ, beq_self_eq_true, true_and]
  obtain ⟨c0, s1, c1, s2, c01, r1, c2, s3, c012, r2, h0, h1, a1, h2, a2, hb⟩ :=
    batch_three (batchCommitScalarToB1_total.mpr ⟨by simp, by simp [generateCrs, assembleCrs]⟩)
      (C18_batch_scalar_B1 (F := F) (generateCrs e s).1 le_rfl 1 [2, 3] (Rng.randF (F := F) G1 G2 (generateCrs e s).2).2)
  rw [wp_ok h0, wp_ok h1, a1, wp_lift_ok, wp_ok h2, a2, wp_lift_ok]
  exact ⟨beq_self_eq_true _, _, _, hb, (C72_commit _ _).2.mpr rfl⟩

theorem pass_batch_scalar_B2 : Passes (test_commit_scalar_B2_batching ρ e) (s, s) := by
  rw [passes_iff]
  unfold test_commit_scalar_B2_batching
  simp only [wp_bind, wp_assert, wp_on1, wp_on2, wp_fr, wp_crs, and_true, idx_cons_zero, idx_cons_one, wp_lift_ok,
    idx_cons_succ, beq_self_eq_true, true_and]
  obtain ⟨c0, s1, c1, s2, c01, r1, c2, s3, c012, r2, h0, h1, a1, h2, a2, hb⟩ :=
    batch_three (batchCommitScalarToB2_total.mpr ⟨by simp, by simp [generateCrs, assembleCrs]⟩)
      (C18_batch_scalar_B2 (F := F) (generateCrs e s).1 le_rfl 1 [2, 3] (Rng.randF (F := F) G1 G2 (generateCrs e s).2).2)
  rw [wp_ok h0, wp_ok h1, a1, wp_lift_ok, wp_ok h2, a2, wp_lift_ok]
  exact ⟨beq_self_eq_true _, _, _, hb, (C72_commit _ _).2.mpr rfl⟩

end
end GS.Tests
