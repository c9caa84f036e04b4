import Verif.Lemmas.TestsProve
import Verif.Spec.Tests
import Verif.Props.Example
import Verif.Props.Message

/-!
# C116: the tests of the repository pass

For every state of the generator, every scheduler and every lawful codec.  Three kinds of tests need more: the two that
look for non-zero generators, and those that run two generators side by side.
-/

set_option linter.unusedSectionVars false

namespace GS
open GS.Tests

variable {ρ F G1 G2 GT : Type} [Field F] [AddCommGroup G1] [Module F G1] [AddCommGroup G2] [Module F G2]
  [AddCommGroup GT] [Module F GT] [DecidableEq F] [DecidableEq G1] [DecidableEq G2] [DecidableEq GT] [Rng ρ F G1 G2]

/-- C116: the tests about `Com1`, `Com2` and `ComT`. -/
theorem C116_com (c1 : Codec G1) (c2 : Codec G2) (h1 : c1.Lawful) (h2 : c2.Lawful) (v1 : ∀ a, c1.Valid a)
    (v2 : ∀ a, c2.Valid a) (randT : ρ → GT × ρ) (s : ρ) :
    Passes (test_B_add_zero (g1 F G1 G2 : Prog ρ G1)) s ∧
    Passes (test_B_add (g1 F G1 G2 : Prog ρ G1)) s ∧
    Passes (test_B_sum (g1 F G1 G2 : Prog ρ G1)) s ∧
    Passes (test_B_neg (g1 F G1 G2 : Prog ρ G1)) s ∧
    Passes (test_B_sub (g1 F G1 G2 : Prog ρ G1)) s ∧
    Passes (test_B_scalar_mul (g1 F G1 G2 : Prog ρ G1) (fr F G1 G2)) s ∧
    Passes (test_B_serde (g1 F G1 G2 : Prog ρ G1) c1) s ∧
    Passes (test_B_add_zero (g2 F G1 G2 : Prog ρ G2)) s ∧
    Passes (test_B_add (g2 F G1 G2 : Prog ρ G2)) s ∧
    Passes (test_B_sum (g2 F G1 G2 : Prog ρ G2)) s ∧
    Passes (test_B_neg (g2 F G1 G2 : Prog ρ G2)) s ∧
    Passes (test_B_sub (g2 F G1 G2 : Prog ρ G2)) s ∧
    Passes (test_B_scalar_mul (g2 F G1 G2 : Prog ρ G2) (fr F G1 G2)) s ∧
    Passes (test_B_serde (g2 F G1 G2 : Prog ρ G2) c2) s ∧
    Passes (test_BT_add_zero (gt randT)) s ∧
    Passes (test_BT_add (gt randT)) s ∧
    Passes (test_BT_sum (gt randT)) s ∧
    Passes (test_BT_neg (gt randT)) s ∧
    Passes (test_BT_sub (gt randT)) s :=
  ⟨pass_B_add_zero (g1_ok F G1 G2) s,
  pass_B_add (g1_ok F G1 G2) s,
  pass_B_sum (g1_ok F G1 G2) s,
  pass_B_neg (g1_ok F G1 G2) s,
  pass_B_sub (g1_ok F G1 G2) s,
  pass_B_scalar_mul (g1_ok F G1 G2) s (fr_ok F G1 G2),
  pass_B_serde (g1_ok F G1 G2) s h1 v1,
  pass_B_add_zero (g2_ok F G1 G2) s,
  pass_B_add (g2_ok F G1 G2) s,
  pass_B_sum (g2_ok F G1 G2) s,
  pass_B_neg (g2_ok F G1 G2) s,
  pass_B_sub (g2_ok F G1 G2) s,
  pass_B_scalar_mul (g2_ok F G1 G2) s (fr_ok F G1 G2),
  pass_B_serde (g2_ok F G1 G2) s h2 v2,
  pass_BT_add_zero (gt_ok randT) s,
  pass_BT_add (gt_ok randT) s,
  pass_BT_sum (gt_ok randT) s,
  pass_BT_neg (gt_ok randT) s,
  pass_BT_sub (gt_ok randT) s⟩

/-- C116: the tests about vectors and matrices of field elements and of `Com1`. -/
theorem C116_matrix (sch : Nat → Scheduler) (b : Bool) (s : ρ) :
    test_col_vec_to_vec F = .ok () ∧
    test_vec_to_col_vec F = .ok () ∧
    test_field_matrix_left_mul_entry F sch = .ok () ∧
    test_field_matrix_right_mul_entry F sch = .ok () ∧
    test_field_matrix_left_mul F sch b = .ok () ∧
    test_field_matrix_right_mul F sch b = .ok () ∧
    test_field_matrix_scalar_mul F = .ok () ∧
    test_field_transpose_vec F = .ok () ∧
    test_field_matrix_transpose F = .ok () ∧
    test_field_matrix_neg F = .ok () ∧
    test_field_matrix_add F = .ok () ∧
    Passes (test_B1_matrix_left_mul_entry F sch (g1 F G1 G2 : Prog ρ G1)) s ∧
    Passes (test_B1_matrix_right_mul_entry F sch (g1 F G1 G2 : Prog ρ G1)) s ∧
    Passes (test_B_matrix_scalar_mul F (g1 F G1 G2 : Prog ρ G1)) s ∧
    Passes (test_B_transpose_vec F (g1 F G1 G2 : Prog ρ G1)) s ∧
    Passes (test_B_matrix_transpose F (g1 F G1 G2 : Prog ρ G1)) s ∧
    Passes (test_B_matrix_neg F (g1 F G1 G2 : Prog ρ G1)) s ∧
    Passes (test_B_matrix_add F (g1 F G1 G2 : Prog ρ G1)) s ∧
    Passes (test_B_matrix_scalar_mul F (g2 F G1 G2 : Prog ρ G2)) s ∧
    Passes (test_B_transpose_vec F (g2 F G1 G2 : Prog ρ G2)) s ∧
    Passes (test_B_matrix_transpose F (g2 F G1 G2 : Prog ρ G2)) s ∧
    Passes (test_B_matrix_neg F (g2 F G1 G2 : Prog ρ G2)) s ∧
    Passes (test_B_matrix_add F (g2 F G1 G2 : Prog ρ G2)) s :=
  ⟨pass_col_vec_to_vec,
  pass_vec_to_col_vec,
  pass_field_left_entry sch,
  pass_field_right_entry sch,
  pass_field_left sch b,
  pass_field_right sch b,
  pass_field_scalar_mul,
  pass_field_transpose_vec,
  pass_field_transpose,
  pass_field_neg,
  pass_field_add,
  pass_B1_left_entry (g1_ok F G1 G2) s sch,
  pass_B1_right_entry (g1_ok F G1 G2) s sch,
  pass_B_matrix_scalar_mul (g1_ok F G1 G2) s,
  pass_B_transpose_vec (g1_ok F G1 G2) s,
  pass_B_matrix_transpose (g1_ok F G1 G2) s,
  pass_B_matrix_neg (g1_ok F G1 G2) s,
  pass_B_matrix_add (g1_ok F G1 G2) s,
  pass_B_matrix_scalar_mul (g2_ok F G1 G2) s,
  pass_B_transpose_vec (g2_ok F G1 G2) s,
  pass_B_matrix_transpose (g2_ok F G1 G2) s,
  pass_B_matrix_neg (g2_ok F G1 G2) s,
  pass_B_matrix_add (g2_ok F G1 G2) s⟩

/-- C116: the tests about the pairing and the maps. -/
theorem C116_maps (e : G1 →ₗ[F] G2 →ₗ[F] GT) (s : ρ) :
    Passes (test_B_pairing_zero_G1 ρ e) s ∧
    Passes (test_B_pairing_zero_G2 ρ e) s ∧
    Passes (test_B_pairing_commit ρ e) s ∧
    Passes (test_B_pairing_rand ρ e) s ∧
    Passes (test_B_pairing_sum ρ e) s ∧
    Passes (test_B_into_matrix ρ e) s ∧
    Passes (test_B_from_matrix ρ e) s ∧
    Passes (test_batched_scalar_linear_maps ρ e) s ∧
    Passes (test_PPE_linear_maps ρ e) s ∧
    Passes (test_MSMEG1_linear_maps ρ e) s ∧
    Passes (test_MSMEG2_linear_maps ρ e) s ∧
    Passes (test_QuadEqu_linear_maps ρ e) s ∧
    Passes (PPE_linear_bilinear_map_commutativity ρ e) s ∧
    Passes (MSMEG1_linear_bilinear_map_commutativity ρ e) s ∧
    Passes (MSMEG2_linear_bilinear_map_commutativity ρ e) s ∧
    Passes (QuadEqu_linear_bilinear_map_commutativity ρ e) s ∧
    Passes (test_batched_linear_maps (F := F) (G1 := G1) (G2 := G2) ρ) s :=
  ⟨pass_pairing_zero_G1 e s,
  pass_pairing_zero_G2 e s,
  pass_pairing_commit e s,
  pass_pairing_rand e s,
  pass_pairing_sum e s,
  pass_into_matrix e s,
  pass_from_matrix e s,
  pass_batched_scalar_maps e s,
  pass_PPE_maps e s,
  pass_MSMEG1_maps e s,
  pass_MSMEG2_maps e s,
  pass_QuadEqu_maps e s,
  pass_PPE_comm e s,
  pass_MSMEG1_comm e s,
  pass_MSMEG2_comm e s,
  pass_QuadEqu_comm e s,
  pass_batched_maps (F := F) (G1 := G1) (G2 := G2) s⟩

/-- C116: the two tests about the key pass exactly when the draws they depend on are not zero. -/
theorem C116_key (e : G1 →ₗ[F] G2 →ₗ[F] GT) (hp : ∀ x y, e x y = 0 → x = 0 ∨ y = 0)
    {s s1 s2 s3 s4 s5 s6 : ρ} {p1 : G1} {p2 : G2} {a1 a2 t1 t2 : F}
    (h1 : Rng.randG1 F G2 s = (p1, s1)) (h2 : Rng.randG2 F G1 s1 = (p2, s2)) (h3 : Rng.randF G1 G2 s2 = (a1, s3))
    (h4 : Rng.randF G1 G2 s3 = (a2, s4)) (h5 : Rng.randF G1 G2 s4 = (t1, s5)) (h6 : Rng.randF G1 G2 s5 = (t2, s6)) :
    (Passes (test_valid_generators ρ e) s ↔ p1 ≠ 0 ∧ p2 ≠ 0) ∧
    (Passes (test_valid_binding_CRS ρ e) (s, s) ↔ p1 ≠ 0 ∧ p2 ≠ 0 ∧ t1 ≠ 0 ∧ t2 ≠ 0) :=
  ⟨pass_valid_generators e hp h1 h2, pass_binding e h1 h2 h3 h4 h5 h6⟩

/-- C116: the tests that serialize keys, equations, commitments and proofs. -/
theorem C116_serde (e : G1 →ₗ[F] G2 →ₗ[F] GT) (randT : ρ → GT × ρ) (sch : Nat → Scheduler) (cF : Codec F) (c1 : Codec G1)
    (c2 : Codec G2) (cT : Codec GT) (hF : cF.Lawful) (h1 : c1.Lawful) (h2 : c2.Lawful) (hT : cT.Lawful)
    (vF : ∀ a, cF.Valid a) (v1 : ∀ a, c1.Valid a) (v2 : ∀ a, c2.Valid a) (vT : ∀ a, cT.Valid a) (s : ρ) :
    Passes (test_CRS_serde ρ e c1 c2 cT) s ∧
    Passes (test_PPE_equation_serde ρ e randT cF c1 c2 cT) s ∧
    Passes (test_MSMEG1_equation_serde ρ e cF c1) s ∧
    Passes (test_MSMEG2_equation_serde ρ e cF c2) s ∧
    Passes (test_quadratic_equation_serde ρ G1 G2 cF) s ∧
    Passes (test_commit_serde ρ e cF c1 c2) s ∧
    Passes (test_PPE_cproof_serde ρ e randT sch cF c1 c2) s ∧
    Passes (test_MSGMEG1_cproof_serde ρ e sch cF c1 c2) s ∧
    Passes (test_MSMEG2_proof_serde ρ e sch cF c1 c2) s ∧
    Passes (test_quadratic_proof_serde ρ e sch cF c1 c2) s ∧
    test_equtypes_serde = .ok () :=
  ⟨pass_CRS_serde e s h1 h2 hT v1 v2 vT,
  pass_PPE_serde e randT s hF h1 h2 hT vF v1 v2 vT,
  pass_MSMEG1_serde e s hF h1 vF v1,
  pass_MSMEG2_serde e s hF h2 vF v2,
  pass_quad_serde s hF vF,
  pass_commit_serde e s hF h1 h2 vF v1 v2,
  pass_ppe_proof_serde e randT s sch hF h1 h2 vF v1 v2,
  pass_msmeg1_proof_serde e s sch hF h1 h2 vF v1 v2,
  pass_msmeg2_proof_serde e s sch hF h1 h2 vF v1 v2,
  pass_quad_proof_serde e s sch hF h1 h2 vF v1 v2,
  pass_equtypes⟩

/-- C116: the tests about the types of equations and proofs, and about appending commitments. -/
theorem C116_types (e : G1 →ₗ[F] G2 →ₗ[F] GT) (randT : ρ → GT × ρ) (sch : Nat → Scheduler) (s : ρ) :
    Passes (test_PPE_equation_type ρ e randT) s ∧
    Passes (test_MSMEG1_equation_type ρ e) s ∧
    Passes (test_MSMEG2_equation_type ρ e) s ∧
    Passes (test_quadratic_equation_type ρ F G1 G2) s ∧
    Passes (test_PPE_proof_type ρ e randT sch) s ∧
    Passes (test_MSMEG1_proof_type ρ e sch) s ∧
    Passes (test_MSMEG2_proof_type ρ e sch) s ∧
    Passes (test_quadratic_proof_type ρ e sch) s ∧
    Passes (test_commit_append_com1 ρ e) s ∧
    Passes (test_commit_append_com2 ρ e) s :=
  ⟨pass_PPE_type e randT s,
  pass_MSMEG1_type e s,
  pass_MSMEG2_type e s,
  pass_quad_type s,
  pass_ppe_proof_type e randT s sch,
  pass_msmeg1_proof_type e s sch,
  pass_msmeg2_proof_type e s sch,
  pass_quad_proof_type e s sch,
  pass_append1 e s,
  pass_append2 e s⟩

/-- C116: the tests of the whole protocol in tests/prover.rs, with any schedulers for the prover and the verifier. -/
theorem C116_verifies (e : G1 →ₗ[F] G2 →ₗ[F] GT) (sch : Nat → Scheduler) (sch' : Scheduler) (s : ρ) :
    Passes (pairing_product_equation_verifies ρ e sch sch') s ∧
    Passes (multi_scalar_mult_equation_G1_verifies ρ e sch sch') s ∧
    Passes (multi_scalar_mult_equation_G2_verifies ρ e sch sch') s ∧
    Passes (quadratic_equation_verifies ρ e sch sch') s :=
  ⟨pass_ppe_verifies e s sch sch', pass_msmeg1_verifies e s sch sch', pass_msmeg2_verifies e s sch sch',
  pass_quad_verifies e s sch sch'⟩

/-- C116: the tests with two generators pass when the generators start in the same state. -/
theorem C116_same_state (e : G1 →ₗ[F] G2 →ₗ[F] GT) (randT : ρ → GT × ρ) (sch sch' : Nat → Scheduler) (s : ρ) :
    Passes (test_commit_G1_batching ρ e) (s, s) ∧
    Passes (test_commit_G2_batching ρ e) (s, s) ∧
    Passes (test_commit_scalar_B1_batching ρ e) (s, s) ∧
    Passes (test_commit_scalar_B2_batching ρ e) (s, s) ∧
    Passes (test_PPE_cproof_is_commit_and_prove ρ e randT sch sch') (s, s) ∧
    Passes (test_MSMEG1_cproof_is_commit_and_prove ρ e sch sch') (s, s) ∧
    Passes (test_MSMEG2_cproof_is_commit_and_prove ρ e sch sch') (s, s) ∧
    Passes (test_quadratic_cproof_is_commit_and_prove ρ e sch sch') (s, s) :=
  ⟨pass_batch_G1 e s,
  pass_batch_G2 e s,
  pass_batch_scalar_B1 e s,
  pass_batch_scalar_B2 e s,
  (pass_ppe_two e randT s s sch sch').mpr rfl,
  (pass_msmeg1_two e s s sch sch').mpr rfl,
  (pass_msmeg2_two e s s sch sch').mpr rfl,
  (pass_quad_two e s s sch sch').mpr rfl⟩

/-- C116: from any two states, the tests that compare `commit_and_prove` with committing and proving pass exactly when
the two generators return the same scalars after the setup.  The setup is the key, then six scalars and a target for the
pairing product equation, seven scalars for the others. -/
theorem C116_two_states (e : G1 →ₗ[F] G2 →ₗ[F] GT) (randT : ρ → GT × ρ) (sch sch' : Nat → Scheduler) (s t : ρ) :
    (Passes (test_PPE_cproof_is_commit_and_prove ρ e randT sch sch') (s, t) ↔
      (draws (F := F) G1 G2 10 (randT (draws (F := F) G1 G2 6 (generateCrs (F := F) e s).2).2).2).1 =
      (draws (F := F) G1 G2 10 (randT (draws (F := F) G1 G2 6 (generateCrs (F := F) e t).2).2).2).1) ∧
    (Passes (test_MSMEG1_cproof_is_commit_and_prove ρ e sch sch') (s, t) ↔
      (draws (F := F) G1 G2 7 (draws (F := F) G1 G2 7 (generateCrs (F := F) e s).2).2).1 =
      (draws (F := F) G1 G2 7 (draws (F := F) G1 G2 7 (generateCrs (F := F) e t).2).2).1) ∧
    (Passes (test_MSMEG2_cproof_is_commit_and_prove ρ e sch sch') (s, t) ↔
      (draws (F := F) G1 G2 6 (draws (F := F) G1 G2 7 (generateCrs (F := F) e s).2).2).1 =
      (draws (F := F) G1 G2 6 (draws (F := F) G1 G2 7 (generateCrs (F := F) e t).2).2).1) ∧
    (Passes (test_quadratic_cproof_is_commit_and_prove ρ e sch sch') (s, t) ↔
      (draws (F := F) G1 G2 4 (draws (F := F) G1 G2 7 (generateCrs (F := F) e s).2).2).1 =
      (draws (F := F) G1 G2 4 (draws (F := F) G1 G2 7 (generateCrs (F := F) e t).2).2).1) :=
  ⟨pass_ppe_two e randT s t sch sch', pass_msmeg1_two e s t sch sch', pass_msmeg2_two e s t sch sch',
  pass_quad_two e s t sch sch'⟩

section
open Ex
example (s : Nat) := C116_com (F := K) scalar7 scalar7 scalar7_lawful scalar7_lawful scalar7_valid scalar7_valid (fun s : Nat => ((s : K), s + 1)) s
example (s : Nat) (sch : Nat → Scheduler) := C116_matrix (F := K) (G1 := K) (G2 := K) sch true s
example (s : Nat) := C116_maps e7 s

/-- The counter at 1: generators 1 and 2, `t1 = 5`, `t2 = 6`. -/
example : Passes (test_valid_generators Nat e7) 1 ∧ Passes (test_valid_binding_CRS Nat e7) (1, 1) :=
  have h := C116_key (s := (1 : Nat)) e7 prime7.nondeg rfl rfl rfl rfl rfl rfl
  ⟨h.1.mpr (by decide), h.2.mpr (by decide)⟩

/-- The counter at 0: the first generator is zero and both tests panic. -/
example : ¬ Passes (test_valid_generators Nat e7) 0 ∧ ¬ Passes (test_valid_binding_CRS Nat e7) (0, 0) :=
  have h := C116_key (s := (0 : Nat)) e7 prime7.nondeg rfl rfl rfl rfl rfl rfl
  ⟨fun hp => absurd (h.1.mp hp) (by decide), fun hp => absurd (h.2.mp hp) (by decide)⟩

/-- The counter at 2: the generators are 2 and 3, but `t2 = 0`, and one of the tests panics. -/
example : Passes (test_valid_generators Nat e7) 2 ∧ ¬ Passes (test_valid_binding_CRS Nat e7) (2, 2) :=
  have h := C116_key (s := (2 : Nat)) e7 prime7.nondeg rfl rfl rfl rfl rfl rfl
  ⟨h.1.mpr (by decide), fun hp => absurd (h.2.mp hp) (by decide)⟩

example (s : Nat) (sch : Nat → Scheduler) := C116_serde e7 (fun s : Nat => ((s : K), s + 1)) sch scalar7 scalar7 scalar7 scalar7
  scalar7_lawful scalar7_lawful scalar7_lawful scalar7_lawful scalar7_valid scalar7_valid scalar7_valid scalar7_valid s
example (s : Nat) (sch : Nat → Scheduler) := C116_types e7 (fun s : Nat => ((s : K), s + 1)) sch s
example (s : Nat) (sch : Nat → Scheduler) (sch' : Scheduler) := C116_verifies e7 sch sch' s
example (s : Nat) (sch sch' : Nat → Scheduler) := C116_same_state e7 (fun s : Nat => ((s : K), s + 1)) sch sch' s

/-- Two counters at 1 and at 8 return the same numbers modulo 7, and the tests pass; at 1 and at 2 they panic. -/
example (sch sch' : Nat → Scheduler) :
    Passes (test_MSMEG2_cproof_is_commit_and_prove Nat e7 sch sch') (1, 8) ∧
    ¬ Passes (test_MSMEG2_cproof_is_commit_and_prove Nat e7 sch sch') (1, 2) ∧
    ¬ Passes (test_quadratic_cproof_is_commit_and_prove Nat e7 sch sch') (1, 2) :=
  ⟨(C116_two_states e7 (fun s : Nat => ((s : K), s + 1)) sch sch' 1 8).2.2.1.mpr (by decide),
  fun h => absurd ((C116_two_states e7 (fun s : Nat => ((s : K), s + 1)) sch sch' 1 2).2.2.1.mp h) (by decide),
  fun h => absurd ((C116_two_states e7 (fun s : Nat => ((s : K), s + 1)) sch sch' 1 2).2.2.2.mp h) (by decide)⟩
end

end GS
