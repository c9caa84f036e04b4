{
 "claims": [
  {
   "property": "C01",
   "status": "proved",
   "theorems": [
    "GS.C01_ppe_complete",
    "GS.C01_ppe_complete_generated"
   ],
   "note": "completeness: run the model on rectangular inputs, obtaining closed forms of commitments and proofs with finite sums; one generic bilinear identity over abstract modules gives all four types."
  },
  {
   "property": "C02",
   "status": "proved",
   "theorems": [
    "GS.C02_msmeg1_complete",
    "GS.C02_msmeg1_complete_generated"
   ],
   "note": "completeness: run the model on rectangular inputs, obtaining closed forms of commitments and proofs with finite sums; one generic bilinear identity over abstract modules gives all four types."
  },
  {
   "property": "C03",
   "status": "proved",
   "theorems": [
    "GS.C03_msmeg2_complete",
    "GS.C03_msmeg2_complete_generated"
   ],
   "note": "completeness: run the model on rectangular inputs, obtaining closed forms of commitments and proofs with finite sums; one generic bilinear identity over abstract modules gives all four types."
  },
  {
   "property": "C04",
   "status": "proved",
   "theorems": [
    "GS.C04_quad_complete",
    "GS.C04_quad_complete_generated"
   ],
   "note": "completeness: run the model on rectangular inputs, obtaining closed forms of commitments and proofs with finite sums; one generic bilinear identity over abstract modules gives all four types."
  },
  {
   "property": "C05",
   "status": "proved",
   "theorems": [
    "GS.C05_ppe_sound"
   ],
   "note": "soundness: from `verify = ok true`, derive the dimensions, apply the projections `p(c0,c1) = c1 - a c0` that kill the binding key, obtain the equation over extracted values."
  },
  {
   "property": "C06",
   "status": "proved",
   "theorems": [
    "GS.C06_msmeg1_sound"
   ],
   "note": "soundness: from `verify = ok true`, derive the dimensions, apply the projections `p(c0,c1) = c1 - a c0` that kill the binding key, obtain the equation over extracted values."
  },
  {
   "property": "C07",
   "status": "proved",
   "theorems": [
    "GS.C07_msmeg2_sound"
   ],
   "note": "soundness: from `verify = ok true`, derive the dimensions, apply the projections `p(c0,c1) = c1 - a c0` that kill the binding key, obtain the equation over extracted values."
  },
  {
   "property": "C08",
   "status": "proved",
   "theorems": [
    "GS.C08_quad_sound"
   ],
   "note": "soundness: from `verify = ok true`, derive the dimensions, apply the projections `p(c0,c1) = c1 - a c0` that kill the binding key, obtain the equation over extracted values."
  },
  {
   "property": "C09",
   "status": "proved",
   "theorems": [
    "GS.C09_ppe",
    "GS.C09_msmeg1",
    "GS.C09_msmeg2",
    "GS.C09_quad"
   ],
   "note": "from the identity behind completeness plus injectivity of the target maps."
  },
  {
   "property": "C10",
   "status": "proved",
   "theorems": [
    "GS.C10_batch_commit_G1_binding",
    "GS.C10_commit_G1_binding",
    "GS.C10_batch_commit_G2_binding",
    "GS.C10_commit_G2_binding"
   ],
   "note": "injectivity from the same projections."
  },
  {
   "property": "C11",
   "status": "proved",
   "theorems": [
    "GS.C11_batch_commit_scalar_B1_binding",
    "GS.C11_commit_scalar_B1_binding",
    "GS.C11_batch_commit_scalar_B2_binding",
    "GS.C11_commit_scalar_B2_binding"
   ],
   "note": "injectivity from the same projections."
  },
  {
   "property": "C12",
   "status": "proved",
   "theorems": [
    "GS.C12_joint_soundness"
   ],
   "note": "by extraction being a function of the commitments only."
  },
  {
   "property": "C13",
   "status": "proved",
   "theorems": [
    "GS.C13_ppe",
    "GS.C13_ppe_distribution"
   ],
   "note": "a generic lemma over abstract modules: linearly independent keys, all images in their span, and non-degeneracy give a bijection of randomness; four instances."
  },
  {
   "property": "C14",
   "status": "proved",
   "theorems": [
    "GS.C14_msmeg1",
    "GS.C14_msmeg1_distribution"
   ],
   "note": "a generic lemma over abstract modules: linearly independent keys, all images in their span, and non-degeneracy give a bijection of randomness; four instances."
  },
  {
   "property": "C15",
   "status": "proved",
   "theorems": [
    "GS.C15_msmeg2",
    "GS.C15_msmeg2_distribution"
   ],
   "note": "a generic lemma over abstract modules: linearly independent keys, all images in their span, and non-degeneracy give a bijection of randomness; four instances."
  },
  {
   "property": "C16",
   "status": "proved",
   "theorems": [
    "GS.C16_quad",
    "GS.C16_quad_distribution"
   ],
   "note": "a generic lemma over abstract modules: linearly independent keys, all images in their span, and non-degeneracy give a bijection of randomness; four instances."
  },
  {
   "property": "C17",
   "status": "proved",
   "theorems": [
    "GS.C17_batch",
    "GS.C17_single",
    "GS.C17_openable"
   ],
   "note": "as C13-C16, for the commitments alone."
  },
  {
   "property": "C18",
   "status": "proved",
   "theorems": [
    "GS.C18_batch_G1",
    "GS.C18_batch_G2",
    "GS.C18_batch_scalar_B1",
    "GS.C18_batch_scalar_B2"
   ],
   "note": "induction over the list, with the closed form of `left_mul`."
  },
  {
   "property": "C19",
   "status": "proved",
   "theorems": [
    "GS.C19_append",
    "GS.C19_append_panics",
    "GS.C19_append_assoc",
    "GS.C19_append_all"
   ],
   "note": "induction over histories / lists of equations; invariant: commitment opens to the value list."
  },
  {
   "property": "C20",
   "status": "proved",
   "theorems": [
    "GS.C20_history_G1",
    "GS.C20_history_G2",
    "GS.C20_history_B1",
    "GS.C20_history_B2",
    "GS.C20_history_empty",
    "GS.C20_prove_ppe",
    "GS.C20_prove_msmeg1",
    "GS.C20_prove_msmeg2",
    "GS.C20_prove_quad"
   ],
   "note": "induction over histories / lists of equations; invariant: commitment opens to the value list."
  },
  {
   "property": "C21",
   "status": "proved",
   "theorems": [
    "GS.C21_ppe",
    "GS.C21_msmeg1",
    "GS.C21_msmeg2",
    "GS.C21_quad",
    "GS.C21_ppe_history",
    "GS.C21_msmeg1_history",
    "GS.C21_msmeg2_history",
    "GS.C21_quad_history"
   ],
   "note": "induction over histories / lists of equations; invariant: commitment opens to the value list."
  },
  {
   "property": "C22",
   "status": "proved",
   "theorems": [
    "GS.C22_com_right_mul",
    "GS.C22_com_left_mul",
    "GS.C22_field_right_mul",
    "GS.C22_field_left_mul",
    "GS.C22_schedule_independent"
   ],
   "note": "induction over the task order; slots written once; `ok` results coincide; panics coincide."
  },
  {
   "property": "C23",
   "status": "proved",
   "theorems": [
    "GS.C23_prove",
    "GS.C23_commit_and_prove",
    "GS.C23_verify"
   ],
   "note": "induction over the task order; slots written once; `ok` results coincide; panics coincide."
  },
  {
   "property": "C24",
   "status": "proved",
   "theorems": [
    "GS.C24_rect_iff_rows",
    "GS.C24_field_right_mul",
    "GS.C24_field_left_mul",
    "GS.C24_com_left_mul",
    "GS.C24_com_right_mul"
   ],
   "note": "index lemmas about `collect` and `idx`; rectangular matrices as `Fin m \u2192 Fin n \u2192 \u03b1`."
  },
  {
   "property": "C25",
   "status": "proved",
   "theorems": [
    "GS.C25_field_assoc",
    "GS.C25_field_field_com_assoc",
    "GS.C25_field_com_field_assoc",
    "GS.C25_field_left_distrib",
    "GS.C25_field_right_distrib",
    "GS.C25_com_left_distrib",
    "GS.C25_com_right_distrib",
    "GS.C25_field_transpose_mul",
    "GS.C25_com_transpose_mul",
    "GS.C25_field_neg",
    "GS.C25_com_neg",
    "GS.C25_field_scalar_mul",
    "GS.C25_com_scalar_mul"
   ],
   "note": "index lemmas about `collect` and `idx`; rectangular matrices as `Fin m \u2192 Fin n \u2192 \u03b1`."
  },
  {
   "property": "C26",
   "status": "proved",
   "theorems": [
    "GS.C26_field_transpose",
    "GS.C26_com_transpose",
    "GS.C26_field_involution",
    "GS.C26_com_involution",
    "GS.C26_field_panics",
    "GS.C26_com_panics"
   ],
   "note": "index lemmas about `collect` and `idx`; rectangular matrices as `Fin m \u2192 Fin n \u2192 \u03b1`."
  },
  {
   "property": "C27",
   "status": "proved",
   "theorems": [
    "GS.C27_field_add",
    "GS.C27_com_add",
    "GS.C27_field_neg",
    "GS.C27_com_neg",
    "GS.C27_field_scalar_mul",
    "GS.C27_com_scalar_mul"
   ],
   "note": "index lemmas about `collect` and `idx`; rectangular matrices as `Fin m \u2192 Fin n \u2192 \u03b1`."
  },
  {
   "property": "C28",
   "status": "proved",
   "theorems": [
    "GS.C28_field_add",
    "GS.C28_com_add",
    "GS.C28_field_scalar_mul",
    "GS.C28_com_scalar_mul",
    "GS.C28_field_neg",
    "GS.C28_com_neg",
    "GS.C28_field_right_mul",
    "GS.C28_field_left_mul",
    "GS.C28_com_right_mul",
    "GS.C28_com_left_mul",
    "GS.C28_empty_product"
   ],
   "note": "index lemmas about `collect` and `idx`; rectangular matrices as `Fin m \u2192 Fin n \u2192 \u03b1`."
  },
  {
   "property": "C29",
   "status": "proved",
   "theorems": [
    "GS.C29_vec_col_vec",
    "GS.C29_col_vec",
    "GS.C29_rect",
    "GS.C29_panics",
    "GS.C29_single_row"
   ],
   "note": "index lemmas about `collect` and `idx`; rectangular matrices as `Fin m \u2192 Fin n \u2192 \u03b1`."
  },
  {
   "property": "C30",
   "status": "proved",
   "theorems": [
    "GS.C30_com_group",
    "GS.C30_com_ops",
    "GS.C30_com_module",
    "GS.C30_com_components",
    "GS.C30_com_sum",
    "GS.C30_com_eq",
    "GS.C30_comT_group",
    "GS.C30_comT_ops",
    "GS.C30_comT_components",
    "GS.C30_comT_sum",
    "GS.C30_comT_eq"
   ],
   "note": "componentwise algebra."
  },
  {
   "property": "C31",
   "status": "proved",
   "theorems": [
    "GS.C31_pairing_bilinear",
    "GS.C31_pairing_matrix",
    "GS.C31_pairing_nondegenerate_left",
    "GS.C31_pairing_nondegenerate_right",
    "GS.C31_pairing_sum",
    "GS.C31_pairing_sum_perm"
   ],
   "note": "componentwise algebra."
  },
  {
   "property": "C32",
   "status": "proved",
   "theorems": [
    "GS.C32_ppe",
    "GS.C32_msmeg1",
    "GS.C32_msmeg2",
    "GS.C32_quad"
   ],
   "note": "componentwise algebra."
  },
  {
   "property": "C33",
   "status": "proved",
   "theorems": [
    "GS.C33_linear_map_B1",
    "GS.C33_linear_map_B2",
    "GS.C33_linear_map_PPE",
    "GS.C33_scalar_maps_hom",
    "GS.C33_scalar_maps_injective",
    "GS.C33_batch_maps",
    "GS.C33_scalar_maps_panic"
   ],
   "note": "componentwise algebra."
  },
  {
   "property": "C34",
   "status": "proved",
   "theorems": [
    "GS.C34_generate_crs",
    "GS.C34_nonzero"
   ],
   "note": "unfold `generate_crs`; linear algebra."
  },
  {
   "property": "C35",
   "status": "proved",
   "theorems": [
    "GS.C35_generated_dependent",
    "GS.C35_generated_binding",
    "GS.C35_simulated_basis",
    "GS.C35_difference",
    "GS.C35_disjoint"
   ],
   "note": "unfold `generate_crs`; linear algebra."
  },
  {
   "property": "C36",
   "status": "proved",
   "theorems": [
    "GS.C36_ppe",
    "GS.C36_msmeg1",
    "GS.C36_msmeg2",
    "GS.C36_quad",
    "GS.C36_commit_and_prove",
    "GS.C36_no_mixed_randomness"
   ],
   "note": "inversion lemmas: success of each step gives length facts; conversely closed forms."
  },
  {
   "property": "C37",
   "status": "proved",
   "theorems": [
    "GS.C37_ppe",
    "GS.C37_msmeg1",
    "GS.C37_msmeg2",
    "GS.C37_quad",
    "GS.C37_not_total"
   ],
   "note": "inversion lemmas: success of each step gives length facts; conversely closed forms."
  },
  {
   "property": "C38",
   "status": "proved",
   "theorems": [
    "GS.C38_proofs",
    "GS.C38_commitments",
    "GS.C38_commit_and_prove",
    "GS.C38_rand"
   ],
   "note": "corollaries of the above, for arbitrary inputs on which the calls return."
  },
  {
   "property": "C39",
   "status": "proved",
   "theorems": [
    "GS.C39_ppe",
    "GS.C39_msmeg1",
    "GS.C39_msmeg2",
    "GS.C39_quad",
    "GS.C39_prove"
   ],
   "note": "corollaries of the above, for arbitrary inputs on which the calls return."
  },
  {
   "property": "C40",
   "status": "proved",
   "theorems": [
    "GS.C40_serialize",
    "GS.C40_deserialize",
    "GS.C40_deserialize_iff"
   ],
   "note": "codec combinators with prefix round-trip, prefix-monotonicity; base codecs assumed lawful."
  },
  {
   "property": "C41",
   "status": "proved",
   "theorems": [
    "GS.C41_com",
    "GS.C41_commit",
    "GS.C41_crs",
    "GS.C41_proof",
    "GS.C41_ppe",
    "GS.C41_msmeg1",
    "GS.C41_msmeg2",
    "GS.C41_quad"
   ],
   "note": "codec combinators with prefix round-trip, prefix-monotonicity; base codecs assumed lawful."
  },
  {
   "property": "C42",
   "status": "proved",
   "theorems": [
    "GS.C42_com",
    "GS.C42_commit",
    "GS.C42_crs",
    "GS.C42_proof",
    "GS.C42_ppe",
    "GS.C42_msmeg1",
    "GS.C42_msmeg2",
    "GS.C42_quad"
   ],
   "note": "codec combinators with prefix round-trip, prefix-monotonicity; base codecs assumed lawful."
  },
  {
   "property": "C43",
   "status": "proved",
   "theorems": [
    "GS.C43_randomness_ignored",
    "GS.C43_surplus_ignored",
    "GS.C43_malleable"
   ],
   "note": "corollaries of the above, for arbitrary inputs on which the calls return."
  },
  {
   "property": "C44",
   "status": "proved",
   "theorems": [
    "GS.C44_reveal_G1",
    "GS.C44_reveal_G2",
    "GS.C44_reveal_B1",
    "GS.C44_reveal_B2"
   ],
   "note": "the property as expected by a user is false: prove its negation (recoverability from the serialized commitment)."
  },
  {
   "property": "C45",
   "status": "proved",
   "theorems": [
    "GS.C45_ppe_target",
    "GS.C45_msmeg1_target",
    "GS.C45_msmeg2_target",
    "GS.C45_quad_target"
   ],
   "note": "corollaries of the above, for arbitrary inputs on which the calls return."
  },
  {
   "property": "C46",
   "status": "proved",
   "theorems": [
    "GS.C46_opens_group_add",
    "GS.C46_opens_scalar_add",
    "GS.C46_opens_group_smul",
    "GS.C46_opens_scalar_smul",
    "GS.C46_batch_G1_add",
    "GS.C46_batch_G2_add",
    "GS.C46_batch_B1_add",
    "GS.C46_batch_B2_add",
    "GS.C46_batch_smul"
   ],
   "note": "corollaries of the above, for arbitrary inputs on which the calls return."
  },
  {
   "property": "C47",
   "status": "proved",
   "theorems": [
    "GS.C47_no_cross_type"
   ],
   "note": "corollaries of the above, for arbitrary inputs on which the calls return."
  },
  {
   "property": "C48",
   "status": "proved",
   "theorems": [
    "GS.C48_batch_empty",
    "GS.C48_prove"
   ],
   "note": "corollaries of the above, for arbitrary inputs on which the calls return."
  },
  {
   "property": "C49",
   "status": "proved",
   "theorems": [
    "GS.C49_zero_generator_accepts_false",
    "GS.C49_zero_g2_accepts_any_msmeg1",
    "GS.C49_zero_g1_accepts_any_msmeg2",
    "GS.C49_sound_iff_nonzero",
    "GS.C49_scalar_binding_B1_iff",
    "GS.C49_scalar_binding_B2_iff",
    "GS.C49_not_every_crs_sound"
   ],
   "note": "soundness for nonzero generators from C05-C08; for a zero generator explicit accepted proofs of false statements."
  },
  {
   "property": "C50",
   "status": "proved",
   "theorems": [
    "GS.C50_msmeg1",
    "GS.C50_msmeg1_distribution",
    "GS.C50_msmeg2",
    "GS.C50_msmeg2_distribution",
    "GS.C50_quad",
    "GS.C50_quad_distribution",
    "GS.C50_ppe_zero_target"
   ],
   "note": "simulator: prover run with the zero witness in which the commitment to the constant 1 is opened to 0 with the trapdoor."
  },
  {
   "property": "C51",
   "status": "proved",
   "theorems": [
    "GS.C51_crs_indistinguishable",
    "GS.C51_reductions",
    "GS.C51_not_statistical"
   ],
   "note": "concrete reduction: hybrid argument with finite counting, binding -> random -> hiding on each side."
  },
  {
   "property": "C52",
   "status": "proved",
   "theorems": [
    "GS.C52_com_round_trip",
    "GS.C52_com_from_matrix",
    "GS.C52_com_panics",
    "GS.C52_comT_round_trip",
    "GS.C52_comT_from_matrix",
    "GS.C52_comT_panics"
   ],
   "note": "componentwise algebra."
  },
  {
   "property": "C53",
   "status": "proved",
   "theorems": [
    "GS.C53_ppe",
    "GS.C53_msmeg1",
    "GS.C53_msmeg2",
    "GS.C53_quad"
   ],
   "note": "closed form of `verify`: it accepts exactly if the shapes fit and the published pairing equation holds."
  },
  {
   "property": "C54",
   "status": "proved",
   "theorems": [
    "GS.C54_ppe",
    "GS.C54_msmeg1",
    "GS.C54_msmeg2",
    "GS.C54_quad",
    "GS.C54_msmeg1_published",
    "GS.C54_msmeg2_published",
    "GS.C54_quad_published"
   ],
   "note": "the verification equation with commitments opened to the witness is a linear system for R, S, T, solvable since the key elements span."
  },
  {
   "property": "C55",
   "status": "proved",
   "theorems": [
    "GS.C55_msmeg1",
    "GS.C55_msmeg2",
    "GS.C55_quad"
   ],
   "note": "a simulated CRS opens every commitment to every value, so honest proofs of other values serve for false statements."
  },
  {
   "property": "C56",
   "status": "proved",
   "theorems": [
    "GS.C56_ppe",
    "GS.C56_msmeg1",
    "GS.C56_msmeg2",
    "GS.C56_quad"
   ],
   "note": "hybrid over the CRS (C51), then C13-C16 or C50 on the simulated CRS, and back."
  },
  {
   "property": "C57",
   "status": "proved",
   "theorems": [
    "GS.C57_msmeg1",
    "GS.C57_msmeg2",
    "GS.C57_quad"
   ],
   "note": "hybrid over the CRS (C51), then C13-C16 or C50 on the simulated CRS, and back."
  },
  {
   "property": "C58",
   "status": "proved",
   "theorems": [
    "GS.C58_com",
    "GS.C58_commit",
    "GS.C58_crs",
    "GS.C58_proof",
    "GS.C58_ppe",
    "GS.C58_msmeg1",
    "GS.C58_msmeg2",
    "GS.C58_quad"
   ],
   "note": "canonical codecs and validation, by the same combinators as C40-C42."
  },
  {
   "property": "C59",
   "status": "proved",
   "theorems": [
    "GS.C59_com",
    "GS.C59_commit",
    "GS.C59_crs",
    "GS.C59_proof",
    "GS.C59_ppe",
    "GS.C59_msmeg1",
    "GS.C59_msmeg2",
    "GS.C59_quad"
   ],
   "note": "canonical codecs and validation, by the same combinators as C40-C42."
  },
  {
   "property": "C60",
   "status": "proved",
   "theorems": [
    "GS.C60_statement"
   ],
   "note": "one commitment step followed by `proveAll`, with the honest-run lemma of each kind."
  },
  {
   "property": "C61",
   "status": "proved",
   "theorems": [
    "GS.C61_statement",
    "GS.C61_distribution"
   ],
   "note": "couplings of tapes (`Verif/Lemmas/Couple.lean`), composed along the monadic program; the per-equation coupling holds for *any* two openings of equal commitments."
  },
  {
   "property": "C62",
   "status": "proved",
   "theorems": [
    "GS.C62_statement",
    "GS.C62_no_witness",
    "GS.C62_distribution"
   ],
   "note": "couplings of tapes (`Verif/Lemmas/Couple.lean`), composed along the monadic program; the per-equation coupling holds for *any* two openings of equal commitments."
  },
  {
   "property": "C63",
   "status": "proved",
   "theorems": [
    "GS.C63_indistinguishable",
    "GS.C63_zero_knowledge"
   ],
   "note": "as C56/C57, with everything allowed to depend on the CRS."
  },
  {
   "property": "C64",
   "status": "proved",
   "theorems": [
    "GS.C64_ppe_formula",
    "GS.C64_ppe_exact",
    "GS.C64_msmeg1_formula",
    "GS.C64_msmeg1_exact",
    "GS.C64_msmeg2_formula",
    "GS.C64_msmeg2_exact",
    "GS.C64_quad_formula",
    "GS.C64_quad_exact"
   ],
   "note": "the expected property (whole proofs are witness indistinguishable) is false: prove the bystander's formula, and on hiding keys the exact condition (`fullFn_iff`: T fixed and commitments independent force the same `\u0393\u1d40x`, `x\u00b7b`; conversely a shift of R and S)."
  },
  {
   "property": "C65",
   "status": "proved",
   "theorems": [
    "GS.C65_ppe",
    "GS.C65_msmeg1",
    "GS.C65_msmeg2",
    "GS.C65_quad",
    "GS.C65_group_opening",
    "GS.C65_scalar_opening",
    "GS.C65_msmeg1_lifted",
    "GS.C65_msmeg2_lifted",
    "GS.C65_quad_lifted"
   ],
   "note": "apply `c1 - a c0`, with `a` the scalar drawn by `generate_crs`, to all commitments; the verification equation turns into the equation. Scalar equations are stated on multiples of the generators (`lifted`), with the condition for going back."
  },
  {
   "property": "C66",
   "status": "proved",
   "theorems": [
    "GS.C66_ppe_accept",
    "GS.C66_msmeg1_accept",
    "GS.C66_msmeg2_accept",
    "GS.C66_quad_accept",
    "GS.C66_ppe_unlinkable",
    "GS.C66_msmeg1_unlinkable",
    "GS.C66_msmeg2_unlinkable",
    "GS.C66_quad_unlinkable",
    "GS.C66_ppe_hiding",
    "GS.C66_msmeg1_hiding",
    "GS.C66_msmeg2_hiding",
    "GS.C66_quad_hiding"
   ],
   "note": "`refresh` is a specification of what an outsider computes. Acceptance: the completeness identity with commitments in place of values. Distribution: refreshing the view of randomness `r0` with `r` is the view of randomness `shiftRands r0 r`, a bijection in `r`; with C54 for simulated keys."
  },
  {
   "property": "C67",
   "status": "proved",
   "theorems": [
    "GS.C67_ppe",
    "GS.C67_msmeg1",
    "GS.C67_msmeg2",
    "GS.C67_quad"
   ],
   "note": "the verification equation is linear in constants, target and proof."
  },
  {
   "property": "C68",
   "status": "proved",
   "theorems": [
    "GS.C68_com_right_mul",
    "GS.C68_com_left_mul",
    "GS.C68_field_right_mul",
    "GS.C68_field_left_mul"
   ],
   "note": "`Verif/Model/Conc.lean` is a small-step machine for the nested parallel loops, finer than `parGrid`. Invariant: what a running entry still has to add plus its accumulator is the entry's sum; a size of the state that decreases with every step; progress by cases."
  },
  {
   "property": "C69",
   "status": "proved",
   "theorems": [
    "GS.C69_append",
    "GS.C69_commit_G1",
    "GS.C69_commit_G2",
    "GS.C69_commit_scalar_to_B1",
    "GS.C69_commit_scalar_to_B2",
    "GS.C69_batch_commit_G1",
    "GS.C69_batch_commit_G2",
    "GS.C69_batch_commit_scalar_to_B1",
    "GS.C69_batch_commit_scalar_to_B2",
    "GS.C69_ppe_prove",
    "GS.C69_ppe_commit_and_prove",
    "GS.C69_msmeg1_prove",
    "GS.C69_msmeg1_commit_and_prove",
    "GS.C69_msmeg2_prove",
    "GS.C69_msmeg2_commit_and_prove",
    "GS.C69_quad_prove",
    "GS.C69_quad_commit_and_prove"
   ],
   "note": "`Verif/Model/Unwind.lean` writes the functions with a `&mut` argument again in a monad that keeps the state on a panic. Forgetting the state gives the functions of the other files (so C69 speaks about the same functions as the rest). The state is computed by going through the code: checks, then draws, then a part that has no access to the generator."
  },
  {
   "property": "C70",
   "status": "proved",
   "theorems": [
    "GS.C70_ppe",
    "GS.C70_msmeg1",
    "GS.C70_msmeg2",
    "GS.C70_quad"
   ],
   "note": "as C67: with `gamma = 0` the verification equation is linear in commitments, target and proof together."
  },
  {
   "property": "C71",
   "status": "proved",
   "theorems": [
    "GS.C71_ppe",
    "GS.C71_msmeg1",
    "GS.C71_msmeg2",
    "GS.C71_quad",
    "GS.C71_unpublished",
    "GS.C71_quad_every"
   ],
   "note": "solves for the randomness: the opening fixes a combination of each row of R and S, the second proof elements are met by the remaining freedom (a coefficient must be nonzero, or they extract to zero), and what is left is a trivial proof of `0 = 0`, hence a multiple of the first key element (`pairL_key_zero`), which fixes T."
  },
  {
   "property": "C72",
   "status": "proved",
   "theorems": [
    "GS.C72_vec",
    "GS.C72_coms",
    "GS.C72_matrix",
    "GS.C72_commit",
    "GS.C72_equ_type",
    "GS.C72_equ_proof",
    "GS.C72_cproof",
    "GS.C72_ppe",
    "GS.C72_msmeg1",
    "GS.C72_msmeg2",
    "GS.C72_quad",
    "GS.C72_private"
   ],
   "note": "`Verif/Model/Eq.lean` writes out the hand-written and derived `==`; each is shown to be equality."
  },
  {
   "property": "C73",
   "status": "proved",
   "theorems": [
    "GS.C73_ppe_verify",
    "GS.C73_msmeg1_verify",
    "GS.C73_msmeg2_verify",
    "GS.C73_quad_verify",
    "GS.C73_ppe_prove",
    "GS.C73_msmeg1_prove",
    "GS.C73_msmeg2_prove",
    "GS.C73_quad_prove"
   ],
   "note": "`verify` has the same outcome for two equations if the sizes fit (C37) and the verification equations are equivalent (`verify_same`); reordering a finite sum, dropping a zero term, moving a known term to the constants and the target. For `prove` the closed forms of pi and theta are reordered."
  },
  {
   "property": "C74",
   "status": "proved",
   "theorems": [
    "GS.C74_ppe_x",
    "GS.C74_ppe_y",
    "GS.C74_msmeg1_x",
    "GS.C74_msmeg1_y",
    "GS.C74_msmeg2_x",
    "GS.C74_msmeg2_y",
    "GS.C74_quad_x",
    "GS.C74_quad_y"
   ],
   "note": "`verify` has the same outcome for two equations if the sizes fit (C37) and the verification equations are equivalent (`verify_same`); reordering a finite sum, dropping a zero term, moving a known term to the constants and the target. For `prove` the closed forms of pi and theta are reordered."
  },
  {
   "property": "C75",
   "status": "proved",
   "theorems": [
    "GS.C75_ppe_x",
    "GS.C75_ppe_y",
    "GS.C75_msmeg1_x",
    "GS.C75_msmeg1_y",
    "GS.C75_msmeg2_x",
    "GS.C75_msmeg2_y",
    "GS.C75_quad_x",
    "GS.C75_quad_y"
   ],
   "note": "`verify` has the same outcome for two equations if the sizes fit (C37) and the verification equations are equivalent (`verify_same`); reordering a finite sum, dropping a zero term, moving a known term to the constants and the target. For `prove` the closed forms of pi and theta are reordered."
  },
  {
   "property": "C76",
   "status": "proved",
   "theorems": [
    "GS.C76_sound_probability",
    "GS.C76_adaptive_soundness",
    "GS.C76_tight"
   ],
   "note": "a generated CRS is sound exactly if both generators are nonzero (C05-C08, C49); average the product of two indicators."
  },
  {
   "property": "C77",
   "status": "proved",
   "theorems": [
    "GS.C77_ppe",
    "GS.C77_msmeg1",
    "GS.C77_msmeg2",
    "GS.C77_quad",
    "GS.C77_quad_not_power"
   ],
   "note": "instantiate C09 with the documented fields and compute the left-hand side."
  },
  {
   "property": "C78",
   "status": "proved",
   "theorems": [
    "GS.C78_commit_B1",
    "GS.C78_commit_B2",
    "GS.C78_prove",
    "GS.C78_open_iff",
    "GS.C78_joint_soundness"
   ],
   "note": "`x (u1 + (O, g)) + r u0 = (O, x g) + r u0 + x u1`; then the honest-run lemmas and C12."
  },
  {
   "property": "C79",
   "status": "proved",
   "theorems": [
    "GS.C79_commit",
    "GS.C79_prove",
    "GS.C79_verify",
    "GS.C79_msmeg1_other_gen",
    "GS.C79_msmeg2_other_gen",
    "GS.C79_quad_other_g2",
    "GS.C79_quad_other_g1"
   ],
   "note": "by definition for fields that are not read; otherwise subtract the two verification equations (C53), what is left is `F(\u03a3 b_i c_i, (O, \u03b4)) = F(\u03b9(t), (O, \u03b4))` with `\u03b4` the difference of the generators."
  },
  {
   "property": "C80",
   "status": "proved",
   "theorems": [
    "GS.C80_ppe_proof",
    "GS.C80_ppe_commitment",
    "GS.C80_ppe_equation",
    "GS.C80_msmeg1_proof",
    "GS.C80_msmeg1_commitment",
    "GS.C80_msmeg1_equation",
    "GS.C80_msmeg2_proof",
    "GS.C80_msmeg2_commitment",
    "GS.C80_msmeg2_equation",
    "GS.C80_quad_proof",
    "GS.C80_quad_commitment",
    "GS.C80_quad_equation",
    "GS.C80_generated"
   ],
   "note": "C53 gives one equation in `GT`; replacing an element adds `F(\u03b4, w)` to one side, which is 0 exactly if `\u03b4` or `w` is (nondegeneracy, componentwise)."
  },
  {
   "property": "C81",
   "status": "proved",
   "theorems": [
    "GS.C81_holds",
    "GS.C81_msmeg1_ppe",
    "GS.C81_msmeg2_ppe",
    "GS.C81_quad_msmeg1",
    "GS.C81_quad_msmeg2"
   ],
   "note": "`F(c, b (v1 + (O, g))) = F(c, (O, b g)) + F(b c, v1)`: the second terms and the target make up the added proof element."
  },
  {
   "property": "C82",
   "status": "proved",
   "theorems": [
    "GS.C82_equType",
    "GS.C82_com",
    "GS.C82_commit",
    "GS.C82_crs",
    "GS.C82_proof",
    "GS.C82_ppe",
    "GS.C82_msmeg1",
    "GS.C82_msmeg2",
    "GS.C82_quad",
    "GS.C82_equType_back",
    "GS.C82_com_back",
    "GS.C82_commit_back",
    "GS.C82_crs_back",
    "GS.C82_proof_back",
    "GS.C82_ppe_back",
    "GS.C82_msmeg1_back",
    "GS.C82_msmeg2_back",
    "GS.C82_quad_back"
   ],
   "note": "model: `serialize` as list of buffers for `write_all`, `deserialize` as program over `read_exact`, with one rule for each answer of `write` and `read`, and for a crash. Applied to byte strings these are the codecs of C41; then C41, C42, C59."
  },
  {
   "property": "C83",
   "status": "proved",
   "theorems": [
    "GS.C83_calls",
    "GS.C83_ppe_prove",
    "GS.C83_ppe_commit_and_prove",
    "GS.C83_msmeg1_prove",
    "GS.C83_msmeg1_commit_and_prove",
    "GS.C83_msmeg2_prove",
    "GS.C83_msmeg2_commit_and_prove",
    "GS.C83_quad_prove",
    "GS.C83_quad_commit_and_prove",
    "GS.C83_ppe_verify",
    "GS.C83_msmeg1_verify",
    "GS.C83_msmeg2_verify",
    "GS.C83_quad_verify"
   ],
   "note": "model: each call is code with parallel products in between; its value `eval` is the sequential one (C68), and is invariant under steps. Steps of a call are well-founded by induction on its code; calls share no mutable state."
  },
  {
   "property": "C84",
   "status": "proved",
   "theorems": [
    "GS.C84_ppe_verify",
    "GS.C84_msmeg1_verify",
    "GS.C84_msmeg2_verify",
    "GS.C84_quad_verify",
    "GS.C84_ppe_prove",
    "GS.C84_ppe_commit_and_prove",
    "GS.C84_msmeg1_prove",
    "GS.C84_msmeg1_commit_and_prove",
    "GS.C84_msmeg2_prove",
    "GS.C84_msmeg2_commit_and_prove",
    "GS.C84_quad_prove",
    "GS.C84_quad_commit_and_prove",
    "GS.C84_holds",
    "GS.C84_crs"
   ],
   "note": "exact domain and equation of `verify` (C37, C53), whose 2\u00d72 matrix is transposed by the exchange; for `prove` the proof computed from `T` is the exchanged one computed from `R\u1d40 \u0393 S \u2212 T\u1d40`, a bijection of the randomness."
  },
  {
   "property": "C85",
   "status": "proved",
   "theorems": [
    "GS.C85_G1",
    "GS.C85_B1",
    "GS.C85_G2",
    "GS.C85_B2"
   ],
   "note": "first half of the hybrid argument of C51: only the key in G1 is replaced by a hiding one, under which the commitments are perfectly hiding; for G2 with exchanged groups (C84)."
  },
  {
   "property": "C86",
   "status": "proved",
   "theorems": [
    "GS.C86_commit_G1",
    "GS.C86_commit_B1",
    "GS.C86_commit_G2",
    "GS.C86_commit_B2",
    "GS.C86_ppe_prove",
    "GS.C86_ppe_prove_count",
    "GS.C86_ppe_commit_and_prove",
    "GS.C86_msmeg1_prove",
    "GS.C86_msmeg1_prove_count",
    "GS.C86_msmeg1_commit_and_prove",
    "GS.C86_msmeg2_prove",
    "GS.C86_msmeg2_prove_count",
    "GS.C86_msmeg2_commit_and_prove",
    "GS.C86_quad_prove",
    "GS.C86_quad_prove_count",
    "GS.C86_quad_commit_and_prove"
   ],
   "note": "fibres of the affine maps from tapes to commitments (key relations: a line on a binding key, none on a hiding one) and from tapes to proofs (matrices `T` with `T u = 0` and `T\u1d40 v = 0`); for `commit_and_prove` translation by the difference of two tapes with the same commitments. Counts are `Nat.card`, so they say something for finite `F`."
  },
  {
   "property": "C87",
   "status": "proved",
   "theorems": [
    "GS.C87_ppe",
    "GS.C87_msmeg1",
    "GS.C87_msmeg2",
    "GS.C87_quad",
    "GS.C87_ppe_zero"
   ],
   "note": "the first coordinates of the verification equation pair the random generator with `\u03c0_0 + t \u03c0_1` (or, for scalar variables, with `\u03c0_0 + t X`), which vanishes for at most one `t`; otherwise at most one generator satisfies the equation (nondegeneracy)."
  },
  {
   "property": "C88",
   "status": "proved",
   "theorems": [
    "GS.C88_generate",
    "GS.C88_commit_G1",
    "GS.C88_commit_scalar_B1",
    "GS.C88_batch_commit_G1",
    "GS.C88_batch_commit_scalar_B1",
    "GS.C88_commit_G2",
    "GS.C88_commit_scalar_B2",
    "GS.C88_batch_commit_G2",
    "GS.C88_batch_commit_scalar_B2",
    "GS.C88_ppe_prove",
    "GS.C88_msmeg1_prove",
    "GS.C88_msmeg2_prove",
    "GS.C88_quad_prove",
    "GS.C88_ppe_commit_and_prove",
    "GS.C88_msmeg1_commit_and_prove",
    "GS.C88_msmeg2_commit_and_prove",
    "GS.C88_quad_commit_and_prove",
    "GS.C88_ppe_verify",
    "GS.C88_msmeg1_verify",
    "GS.C88_msmeg2_verify",
    "GS.C88_quad_verify",
    "GS.C88_holds"
   ],
   "note": "the homomorphisms act on the closed forms of `prove` (linear in the group elements) and on both sides of the verification equation; the domains (C36, C37) depend only on sizes; `commit_and_prove` is composed from its parts."
  },
  {
   "property": "C89",
   "status": "proved",
   "theorems": [
    "GS.C89_batch_G1",
    "GS.C89_batch_G2",
    "GS.C89_batch_scalar_B1",
    "GS.C89_batch_scalar_B2",
    "GS.C89_generated",
    "GS.C89_nothing_else_G1",
    "GS.C89_nothing_else_G2",
    "GS.C89_nothing_else_scalar_B1",
    "GS.C89_nothing_else_scalar_B2"
   ],
   "note": "closed form of the batch commitments; the second commitment is the first plus known differences, then C17."
  },
  {
   "property": "C90",
   "status": "proved",
   "theorems": [
    "GS.C90_traced_commit",
    "GS.C90_traced_batch_commit",
    "GS.C90_traced_generate",
    "GS.C90_traced_ppe",
    "GS.C90_traced_msmeg1",
    "GS.C90_traced_msmeg2",
    "GS.C90_traced_quad",
    "GS.C90_ppe_steps",
    "GS.C90_msmeg1_steps",
    "GS.C90_msmeg2_steps",
    "GS.C90_quad_steps",
    "GS.C90_generate",
    "GS.C90_commit_G1",
    "GS.C90_batch_commit_G1",
    "GS.C90_commit_G2",
    "GS.C90_batch_commit_G2",
    "GS.C90_commit_scalar_B1",
    "GS.C90_batch_commit_scalar_B1",
    "GS.C90_commit_scalar_B2",
    "GS.C90_batch_commit_scalar_B2",
    "GS.C90_ppe_prove",
    "GS.C90_ppe_commit_and_prove",
    "GS.C90_ppe_verify",
    "GS.C90_msmeg1_prove",
    "GS.C90_msmeg1_commit_and_prove",
    "GS.C90_msmeg1_verify",
    "GS.C90_msmeg2_prove",
    "GS.C90_msmeg2_commit_and_prove",
    "GS.C90_msmeg2_verify",
    "GS.C90_quad_prove",
    "GS.C90_quad_commit_and_prove",
    "GS.C90_quad_verify"
   ],
   "note": "a second model of every function that also returns the list of operations (`Model/Trace.lean`), proved equal to the first; then a relational argument: related inputs (same sizes) give the same list."
  },
  {
   "property": "C91",
   "status": "proved",
   "theorems": [
    "GS.C91_ppe_bound",
    "GS.C91_ppe_exact",
    "GS.C91_msmeg1_bound",
    "GS.C91_msmeg1_exact",
    "GS.C91_msmeg2_bound",
    "GS.C91_msmeg2_exact",
    "GS.C91_quad_bound",
    "GS.C91_quad_exact"
   ],
   "note": "price of a run as a sum over the list of operations; every `pairing_sum` asserts the lengths before it pairs, so the sizes of the message are those of the statement where it matters."
  },
  {
   "property": "C92",
   "status": "proved",
   "theorems": [
    "GS.C92_batch_commit_G1",
    "GS.C92_commit_G1",
    "GS.C92_batch_commit_G2",
    "GS.C92_commit_G2",
    "GS.C92_batch_commit_scalar_B1",
    "GS.C92_commit_scalar_B1",
    "GS.C92_batch_commit_scalar_B2",
    "GS.C92_commit_scalar_B2",
    "GS.C92_ppe_prove",
    "GS.C92_ppe_commit_and_prove",
    "GS.C92_msmeg1_prove",
    "GS.C92_msmeg1_commit_and_prove",
    "GS.C92_msmeg2_prove",
    "GS.C92_msmeg2_commit_and_prove",
    "GS.C92_quad_prove",
    "GS.C92_quad_commit_and_prove"
   ],
   "note": "the same logic of prices, for matrices of known dimensions."
  },
  {
   "property": "C93",
   "status": "proved",
   "theorems": [
    "GS.C93_group_criterion",
    "GS.C93_scalar_criterion",
    "GS.C93_group_binding_binds_scalars",
    "GS.C93_intermediate_key",
    "GS.C93_G1_binding",
    "GS.C93_G1_equivocal",
    "GS.C93_G1_either",
    "GS.C93_G2_binding",
    "GS.C93_G2_equivocal",
    "GS.C93_G2_either",
    "GS.C93_scalar_B1_binding",
    "GS.C93_scalar_B1_equivocal",
    "GS.C93_scalar_B1_either",
    "GS.C93_scalar_B2_binding",
    "GS.C93_scalar_B2_equivocal",
    "GS.C93_scalar_B2_either"
   ],
   "note": "binding and equivocal keys defined by openings (`Spec/AnyCrs.lean`); a nonzero `(O, Z)` in the span of a key generates all of them, so a key that is not binding is equivocal; translation of the randomness as bijection of tapes."
  },
  {
   "property": "C94",
   "status": "proved",
   "theorems": [
    "GS.C94_ppe_extract",
    "GS.C94_ppe",
    "GS.C94_msmeg1_extract",
    "GS.C94_msmeg1",
    "GS.C94_msmeg2_extract",
    "GS.C94_msmeg2",
    "GS.C94_quad_extract",
    "GS.C94_quad"
   ],
   "note": "a functional `(c0, c1) \u21a6 \u03b1 c0 + \u03b2 c1` that vanishes on the key but not on embedded values, applied to the verification equation on both sides; explicit accepted proofs of `0 = t` for the other keys."
  },
  {
   "property": "C95",
   "status": "proved",
   "theorems": [
    "GS.C95_ppe",
    "GS.C95_msmeg1",
    "GS.C95_msmeg2",
    "GS.C95_quad"
   ],
   "note": "an explicit change of the randomness (a translation of the commitment randomness and a shear of the proof randomness) that needs no independence of the key elements; conversely equal commitments to two values contradict binding."
  },
  {
   "property": "C96",
   "status": "proved",
   "theorems": [
    "GS.C96_ppe_left",
    "GS.C96_ppe_right",
    "GS.C96_msmeg1_left",
    "GS.C96_msmeg1_right",
    "GS.C96_msmeg2_left",
    "GS.C96_msmeg2_right",
    "GS.C96_quad_left",
    "GS.C96_quad_right"
   ],
   "note": "the same change of randomness with one side fixed."
  },
  {
   "property": "C97",
   "status": "proved",
   "theorems": [
    "GS.C97_ppe",
    "GS.C97_msmeg1",
    "GS.C97_msmeg2",
    "GS.C97_quad",
    "GS.C97_ppe_generated",
    "GS.C97_msmeg1_generated",
    "GS.C97_msmeg2_generated",
    "GS.C97_quad_generated",
    "GS.C97_ppe_common",
    "GS.C97_msmeg1_common",
    "GS.C97_msmeg2_common",
    "GS.C97_quad_common"
   ],
   "note": "two equations accepted for one message give a relation between the commitments; counting by shifting one entry of the randomness, at most two parts in `|F|` of the randomness satisfy a nontrivial relation. The untied message is the prover's output for randomness 0."
  },
  {
   "property": "C98",
   "status": "proved",
   "theorems": [
    "GS.C98_ppe_formula",
    "GS.C98_ppe_same",
    "GS.C98_ppe_exact",
    "GS.C98_msmeg1_formula",
    "GS.C98_msmeg1_same",
    "GS.C98_msmeg1_exact",
    "GS.C98_msmeg2_formula",
    "GS.C98_msmeg2_same",
    "GS.C98_msmeg2_exact",
    "GS.C98_quad_formula",
    "GS.C98_quad_same",
    "GS.C98_quad_exact"
   ],
   "note": "with the same randomness the difference of the two `pi` is `R^T` applied to the difference of the weights, so pairing the commitments with that difference and the keys with the difference of the `pi` cancels `R`. Exactness: explicit shift of `R`, `S` and `T` in coordinates."
  },
  {
   "property": "C99",
   "status": "proved",
   "theorems": [
    "GS.C99_ppe_game",
    "GS.C99_ppe",
    "GS.C99_ppe_generated",
    "GS.C99_msmeg1_game",
    "GS.C99_msmeg1",
    "GS.C99_msmeg1_generated",
    "GS.C99_msmeg2_game",
    "GS.C99_msmeg2",
    "GS.C99_msmeg2_generated",
    "GS.C99_quad_game",
    "GS.C99_quad",
    "GS.C99_quad_generated",
    "GS.C99_commit_G1",
    "GS.C99_commit_G2",
    "GS.C99_commit_B1",
    "GS.C99_commit_B2"
   ],
   "note": "a run with any generator is the run on the tape of its draws (C39), so the averages differ by an advantage against the generator; triangle inequality with C13-C17 and C56."
  },
  {
   "property": "C100",
   "status": "proved",
   "theorems": [
    "GS.C100_ledger",
    "GS.C100_last",
    "GS.C100_sound",
    "GS.C100_complete"
   ],
   "note": "invariant over histories: a table from serial numbers to commitments such that every variable holds the commitments of its items; each call keeps it (C36-C38, C41, C19, C69), and verdicts follow from completeness and C12/C78."
  },
  {
   "property": "C101",
   "status": "proved",
   "theorems": [
    "GS.C101_agrees",
    "GS.C101_ppe",
    "GS.C101_msmeg1",
    "GS.C101_msmeg2",
    "GS.C101_quad",
    "GS.C101_sound",
    "GS.C101_malleable",
    "GS.C101_false_accepted"
   ],
   "note": "a copy of the verifier without laws on its points; each step commutes with the projections; then C05-C08 on the projections."
  },
  {
   "property": "C102",
   "status": "proved",
   "theorems": [
    "GS.C102_statement",
    "GS.C102_distribution",
    "GS.C102_checkable",
    "GS.C102_indistinguishable",
    "GS.C102_agreement_needed"
   ],
   "note": "commitments with equal values open with equal rows on a hiding key (independence of the key elements), so the coupling of C61 also preserves the openings; hybrids of C51 as in C63."
  },
  {
   "property": "C103",
   "status": "proved",
   "theorems": [
    "GS.C103_commits",
    "GS.C103_proofs",
    "GS.C103_statements",
    "GS.C103_elements",
    "GS.C103_reveal_G1",
    "GS.C103_reveal_G2",
    "GS.C103_reveal_B1",
    "GS.C103_reveal_B2",
    "GS.C103_witness_ppe",
    "GS.C103_witness_msmeg1",
    "GS.C103_witness_msmeg2",
    "GS.C103_witness_quad"
   ],
   "note": "`Model/Debug` renders values in both styles; with white space removed the text is read from left to right, element by element; the witness then follows from the recorded randomness as in C44."
  },
  {
   "property": "C104",
   "status": "proved",
   "theorems": [
    "GS.C104_perfect",
    "GS.C104_indistinguishable",
    "GS.C104_assumption_needed",
    "GS.C104_tape"
   ],
   "note": "a left/right game over strategy trees, played with the store of C100; a bijection of the tape of each call keeps the two worlds related (same published data, same rows for equal values), by induction over the strategy; hybrids of C51 as in C63."
  },
  {
   "property": "C105",
   "status": "proved",
   "theorems": [
    "GS.C105_perfect",
    "GS.C105_indistinguishable",
    "GS.C105_no_secrets",
    "GS.C105_same_answers"
   ],
   "note": "the game of C104 with one call per move, against the store of C100 or against a simulator's store of commitments to zeros (the simulators of C50 for proofs, equivocation with the trapdoor for openings); a bijection of the tape of each call keeps the two stores related. When a group element is opened the simulator is told its discrete logarithm; that it could not compute it efficiently is outside the model. Pairing product equations with other targets have no simulator (C50)."
  },
  {
   "property": "C106",
   "status": "proved",
   "theorems": [
    "GS.C106_commit_agrees",
    "GS.C106_prove_agrees",
    "GS.C106_commit_image",
    "GS.C106_prove_image",
    "GS.C106_commit_and_prove_image",
    "GS.C106_complete",
    "GS.C106_value_leaks",
    "GS.C106_equation_leaks",
    "GS.C106_secret_leaks",
    "GS.C106_crs_leaks",
    "GS.C106_projections",
    "GS.C106_scalar_equation_leaks",
    "GS.C106_scalar_secret_leaks",
    "GS.C106_scalar_secret_leaks_second",
    "GS.C106_secret_leaks_second",
    "GS.C106_crs_leaks_second",
    "GS.C106_scalar_leaks"
   ],
   "note": "a copy of the commitment functions and provers without laws on their points; each step commutes with every homomorphism that respects multiplication by scalars (images, completeness through C01-C04 and C101); closed forms of commitments and of `pi`, `theta` without laws give what the parts outside the subgroup show."
  },
  {
   "property": "C107",
   "status": "proved",
   "theorems": [
    "GS.C107_inside",
    "GS.C107_receive",
    "GS.C107_sound",
    "GS.C107_sent",
    "GS.C107_honest",
    "GS.C107_bytes",
    "GS.C107_panic",
    "GS.C107_unvalidated"
   ],
   "note": "the tuple of the fields of a `CProof` as a codec built from the derived ones (round trip, truncation, validation from the lemmas for C41, C42, C59); valid points are images of points of the subgroup, so the verifier without laws of C101 is the verifier of C05-C08 on them."
  },
  {
   "property": "C108",
   "status": "proved",
   "theorems": [
    "GS.C108_com",
    "GS.C108_commit",
    "GS.C108_crs",
    "GS.C108_proof",
    "GS.C108_ppe",
    "GS.C108_msmeg1",
    "GS.C108_msmeg2",
    "GS.C108_quad",
    "GS.C108_eight_bytes_stop"
   ],
   "note": "reading again with a trace of the requests for memory; two relations to reading without memory (all granted and equal, or the last one refused; exactly the sizes of the vectors of the value) are kept by products, structures and vectors."
  },
  {
   "property": "C109",
   "status": "proved",
   "theorems": [
    "GS.C109_message",
    "GS.C109_round_message",
    "GS.C109_unique_message",
    "GS.C109_com",
    "GS.C109_commit",
    "GS.C109_crs",
    "GS.C109_proof",
    "GS.C109_ppe",
    "GS.C109_msmeg1",
    "GS.C109_msmeg2",
    "GS.C109_quad",
    "GS.C109_round_com",
    "GS.C109_round_commit",
    "GS.C109_round_crs",
    "GS.C109_round_proof",
    "GS.C109_round_ppe",
    "GS.C109_round_msmeg1",
    "GS.C109_round_msmeg2",
    "GS.C109_round_quad",
    "GS.C109_canonical_com",
    "GS.C109_canonical_commit",
    "GS.C109_canonical_crs",
    "GS.C109_canonical_proof",
    "GS.C109_canonical_ppe",
    "GS.C109_canonical_msmeg1",
    "GS.C109_canonical_msmeg2",
    "GS.C109_canonical_quad",
    "GS.C109_unique_com",
    "GS.C109_unique_commit",
    "GS.C109_unique_crs",
    "GS.C109_unique_proof",
    "GS.C109_unique_ppe",
    "GS.C109_unique_msmeg1",
    "GS.C109_unique_msmeg2",
    "GS.C109_unique_quad"
   ],
   "note": "an encoding relation for each combinator (vector, product, structure), with the closure of reading, round trip and uniqueness under it; no law about writing is used for reading."
  },
  {
   "property": "C110",
   "status": "proved",
   "theorems": [
    "GS.C110_fp",
    "GS.C110_quad",
    "GS.C110_cubic",
    "GS.C110_output",
    "GS.C110_compressed",
    "GS.C110_uncompressed",
    "GS.C110_points",
    "GS.C110_unique_compressed",
    "GS.C110_unique_uncompressed",
    "GS.C110_not_canonical",
    "GS.C110_proof_compressed",
    "GS.C110_proof_uncompressed",
    "GS.C110_only",
    "GS.C110_only_commit",
    "GS.C110_only_crs",
    "GS.C110_only_proof",
    "GS.C110_only_ppe",
    "GS.C110_only_msmeg1",
    "GS.C110_only_msmeg2",
    "GS.C110_only_ser_commit",
    "GS.C110_only_ser_crs",
    "GS.C110_only_ser_proof",
    "GS.C110_only_ser_ppe",
    "GS.C110_only_ser_msmeg1",
    "GS.C110_only_ser_msmeg2",
    "GS.C110_only_message",
    "GS.C110_only_ser_message",
    "GS.C110_message_compressed",
    "GS.C110_message_uncompressed",
    "GS.C110_receive"
   ],
   "note": "little-endian numbers with flags in the two free bits; reading of points by cases on the flags; the restriction `only` to points of the curve is lawful, reading with it is reading with the codec itself; the rest is C109."
  },
  {
   "property": "C111",
   "status": "proved",
   "theorems": [
    "GS.C111_commit",
    "GS.C111_proof",
    "GS.C111_message",
    "GS.C111_crs",
    "GS.C111_elements",
    "GS.C111_fields"
   ],
   "note": "shapes of commitments and proofs (C38) and lengths of the fields one after the other."
  },
  {
   "property": "C112",
   "status": "proved",
   "theorems": [
    "GS.C112_ppe",
    "GS.C112_ppe_same",
    "GS.C112_ppe_chance",
    "GS.C112_ppe_generated",
    "GS.C112_msmeg1",
    "GS.C112_msmeg1_same",
    "GS.C112_msmeg1_chance",
    "GS.C112_msmeg1_generated",
    "GS.C112_msmeg2",
    "GS.C112_msmeg2_same",
    "GS.C112_msmeg2_chance",
    "GS.C112_msmeg2_generated",
    "GS.C112_quad",
    "GS.C112_quad_same",
    "GS.C112_quad_chance",
    "GS.C112_quad_generated"
   ],
   "note": "the identity behind completeness with the values of the proof apart from those of the commitments; the condition for acceptance is affine in the randomness of the commitments and not constant."
  },
  {
   "property": "C113",
   "status": "proved",
   "theorems": [
    "GS.C113_opens_group",
    "GS.C113_opens_scalar",
    "GS.C113_ppe_holds",
    "GS.C113_ppe_verify",
    "GS.C113_ppe_prove",
    "GS.C113_ppe",
    "GS.C113_msmeg1_holds",
    "GS.C113_msmeg1_verify",
    "GS.C113_msmeg1_prove",
    "GS.C113_msmeg1",
    "GS.C113_msmeg2_holds",
    "GS.C113_msmeg2_verify",
    "GS.C113_msmeg2_prove",
    "GS.C113_msmeg2",
    "GS.C113_quad_holds",
    "GS.C113_quad_verify",
    "GS.C113_quad_prove",
    "GS.C113_quad"
   ],
   "note": "linear algebra: the left-hand side of an equation at combinations of the variables, and the closed forms of the proof elements."
  },
  {
   "property": "C114",
   "status": "proved",
   "theorems": [
    "GS.C114_fp",
    "GS.C114_quad",
    "GS.C114_compressed",
    "GS.C114_uncompressed",
    "GS.C114_points",
    "GS.C114_unique_compressed",
    "GS.C114_unique_uncompressed",
    "GS.C114_canonical",
    "GS.C114_errors",
    "GS.C114_only",
    "GS.C114_compressed_strict",
    "GS.C114_strict",
    "GS.C114_canonical_composite",
    "GS.C114_vectors",
    "GS.C114_compressed_composite",
    "GS.C114_crs",
    "GS.C114_msmeg1",
    "GS.C114_msmeg2",
    "GS.C114_proof",
    "GS.C114_commit",
    "GS.C114_ppe",
    "GS.C114_offcurve_crs"
   ],
   "note": "the reader inverted, with the finitely many bytes of flags by evaluation; composite values by C58 and C109, after replacing codecs by equal ones."
  },
  {
   "property": "C115",
   "status": "proved",
   "theorems": [
    "GS.C115_scalar",
    "GS.C115_never",
    "GS.C115_in_turn",
    "GS.C115_quad",
    "GS.C115_uniform",
    "GS.C115_fail",
    "GS.C115_fail_many",
    "GS.C115_views",
    "GS.C115_same_words_ppe",
    "GS.C115_same_words_msmeg1",
    "GS.C115_same_words_msmeg2",
    "GS.C115_same_words_quad",
    "GS.C115_points",
    "GS.C115_generator",
    "GS.C115_generator_zero"
   ],
   "note": "the loops unrolled along the words; the counts by induction over the attempts, with a bijection between the words of an attempt, and the bits masked away with the number looked at; calls by C39. The modulus of the scalars of BLS12-381 is proved prime (Lucas) for the instances."
  },
  {
   "property": "C116",
   "status": "proved",
   "theorems": [
    "GS.C116_com",
    "GS.C116_matrix",
    "GS.C116_maps",
    "GS.C116_key",
    "GS.C116_serde",
    "GS.C116_types",
    "GS.C116_verifies",
    "GS.C116_same_state",
    "GS.C116_two_states"
   ],
   "note": "the tests as programs over the state of the generator, by a small calculus of what holds after each draw; the numerical ones by evaluation in an arbitrary field, the others by C01-C04, C18, C36, C39, C41 and C72."
  },
  {
   "property": "C117",
   "status": "proved",
   "theorems": [
    "GS.C117_small",
    "GS.C117_large",
    "GS.C117_large_ppe"
   ],
   "note": "with the calculus of C116, the exact domains of C28 and C36, and C09."
  },
  {
   "property": "C118",
   "status": "proved",
   "theorems": [
    "GS.C118_scalars",
    "GS.C118_ark",
    "GS.C118_bls",
    "GS.C118_order",
    "GS.C118_generator",
    "GS.C118_prime",
    "GS.C118_read",
    "GS.C118_sound",
    "GS.C118_honest"
   ],
   "note": "with the group law of Weierstrass curves of Mathlib; the formats by C110 and C114, the messages as in C107 and C109, the sampler by C115, the order of the subgroup by Cauchy's theorem."
  },
  {
   "property": "C119",
   "status": "proved",
   "theorems": [
    "GS.C119_distance",
    "GS.C119_returns",
    "GS.C119_sound",
    "GS.C119_adaptive_soundness",
    "GS.C119_indistinguishable",
    "GS.C119_zero_knowledge"
   ],
   "note": "by counting the draws of the sampler (C118) and the average over them, then C76, C104 and C105."
  },
  {
   "property": "C120",
   "status": "proved",
   "theorems": [
    "GS.C120_points",
    "GS.C120_tests",
    "GS.C120_lawful",
    "GS.C120_sqrt",
    "GS.C120_clears",
    "GS.C120_attempts",
    "GS.C120_read",
    "GS.C120_sound",
    "GS.C120_honest",
    "GS.C120_sound_crs",
    "GS.C120_distance",
    "GS.C120_adaptive_soundness",
    "GS.C120_indistinguishable",
    "GS.C120_zero_knowledge",
    "GS.C120_scaled",
    "GS.C120_off_curve"
   ],
   "note": "for the modulus by the order of a point, for the numbers of points by Jacobi sums, division in the Eisenstein integers and points computed by the kernel, for the tests by endomorphisms of the curve, for points off the curve by isomorphisms to other curves; then C114, C118, C119."
  },
  {
   "property": "C121",
   "status": "proved",
   "theorems": [
    "GS.C121_crs",
    "GS.C121_equation",
    "GS.C121_same",
    "GS.C121_sound",
    "GS.C121_any",
    "GS.C121_binding",
    "GS.C121_honest",
    "GS.C121_field",
    "GS.C121_target",
    "GS.C121_gt",
    "GS.C121_bls_crs",
    "GS.C121_bls_equation",
    "GS.C121_bls_sound",
    "GS.C121_bls_any",
    "GS.C121_bls_honest",
    "GS.C121_bls_adaptive_soundness",
    "GS.C121_bls_off_curve"
   ],
   "note": "for the field by a norm argument and the order of 2, for the target group by the cyclic group of units; for bytes by C109, C114 and C120, for the verifier by C94, for attackers by C119."
  },
  {
   "property": "C122",
   "status": "proved",
   "theorems": [
    "GS.C122_coordinates",
    "GS.C122_formulas",
    "GS.C122_multiplication",
    "GS.C122_sums",
    "GS.C122_split",
    "GS.C122_glv",
    "GS.C122_glv_outside",
    "GS.C122_glv_projects",
    "GS.C122_tests",
    "GS.C122_verify",
    "GS.C122_commit",
    "GS.C122_prove",
    "GS.C122_commit_and_prove",
    "GS.C122_target",
    "GS.C122_target_outside",
    "GS.C122_methods",
    "GS.C122_bls_carries",
    "GS.C122_bls_verify",
    "GS.C122_bls_crs",
    "GS.C122_bls_generate",
    "GS.C122_bls_sampled",
    "GS.C122_bls_sound",
    "GS.C122_bls_any",
    "GS.C122_bls_honest"
   ],
   "note": "for the formulas against the group law of Mathlib, by cases; for the splitting by the endomorphism of C120; for the functions by relating each operation on coordinates to the one on elements."
  },
  {
   "property": "C123",
   "status": "proved",
   "theorems": [
    "GS.C123_final_exponentiation",
    "GS.C123_multi_pairing",
    "GS.C123_off_curve_panics",
    "GS.C123_pairing",
    "GS.C123_bls_multi_pairing",
    "GS.C123_bls_pairs",
    "GS.C123_bls_prime",
    "GS.C123_bls_verify",
    "GS.C123_bls_generate",
    "GS.C123_bls_sound",
    "GS.C123_bls_any",
    "GS.C123_bls_honest",
    "GS.C123_bls_adaptive_soundness"
   ],
   "note": "for bilinearity by the theory of Miller functions: lines satisfy a cocycle identity up to vertical lines, which the final exponentiation kills, and Weil's reciprocity for lines exchanges the arguments; the step for the twist uses that Frobenius acts on the second group as multiplication by p. The pairing of the generators is computed in the kernel, with polynomials packed into numbers, and is not 1."
  },
  {
   "property": "C124",
   "status": "proved",
   "theorems": [
    "GS.C124_pairing_panics",
    "GS.C124_multi_pairing_panics",
    "GS.C124_order_13",
    "GS.C124_verify_or_panic",
    "GS.C124_bls_verify",
    "GS.C124_bls_generate",
    "GS.C124_bls_sound",
    "GS.C124_bls_any",
    "GS.C124_bls_honest",
    "GS.C124_bls_adaptive_soundness",
    "GS.C124_message_panics"
   ],
   "note": "by following the loop on all points of the curve of the second group: a line of the loop vanishes on no point of the first curve, and coordinates become zero exactly when a multiple of the point does, for a multiplier that is a prefix of the loop's; the greatest common divisors of these with the order of the curve's group are 1 or 13, and 13 for one prefix only. Panics of the pairing are a second kind of panic of the model, and the verifier with it refines the verifier without."
  },
  {
   "property": "C125",
   "status": "proved",
   "theorems": [
    "GS.C125_program",
    "GS.C125_bls_honest",
    "GS.C125_bls_sound",
    "GS.C125_bls_adaptive_soundness",
    "GS.C125_bls_indistinguishable",
    "GS.C125_bls_zero_knowledge"
   ],
   "note": "by representing the program of C60 to C63 (C122), reading the bytes (C120), and the verifier of C124. The two messages sent are functions of what is published in C63, so its bounds hold for the bytes, and C120 bounds the distance between a generator drawn by the sampler and a uniform one. Several equations in one program are a use of the library, not one of its functions."
  },
  {
   "property": "C126",
   "status": "proved",
   "theorems": [
    "GS.C126_unique",
    "GS.C126_add",
    "GS.C126_mul",
    "GS.C126_square",
    "GS.C126_inverse",
    "GS.C126_sum_of_products",
    "GS.C126_numbers",
    "GS.C126_bytes",
    "GS.C126_drawn",
    "GS.C126_bls",
    "GS.C126_bls_scalars"
   ],
   "note": "by following the value of the arrays through each loop. A row of a product is exact, so a whole product gives a number `r` with `2^(64 N) r = a b + K p` for a `K` below `2^(64 N)`: this bounds all numbers on the way, the carries with them, and shows that one subtraction reduces the result. Squares and sums of products have other loops and the same equation. The inverse keeps `b a = u R2` and `c a = v R2` modulo the modulus, with `u` and `v` coprime, while `u + v` falls. The constant `INV` is computed as in the source, by squaring and multiplying; it is right because the units modulo `2^64` have an order that divides `2^63`."
  },
  {
   "property": "C127",
   "status": "proved",
   "theorems": [
    "GS.C127_words",
    "GS.C127_fields",
    "GS.C127_sparse",
    "GS.C127_frobenius",
    "GS.C127_tables",
    "GS.C127_cyclotomic",
    "GS.C127_final_exponentiation",
    "GS.C127_multi_pairing",
    "GS.C127_bls",
    "GS.C127_all_points",
    "GS.C127_panics"
   ],
   "note": "level by level: a type with operations models a field if a bijection respects all of them, and this is passed from the prime field to `Fq2`, `Fq6` and `Fq12` by computing modulo `v^3 = 1 + u` and `w^2 = v`. The special square is that of Granger and Scott: the Frobenius map of `p^2` multiplies the coefficient of `w^i` by the `i`-th power of a sixth root of unity, so `f f^(p^4) = f^(p^2)` is six equations between the coefficients, and they turn the six coefficients of the square into those of the formula. Signed digits are those of the exponent, whatever it is. C126 is the instance of words; C123 and C124 then say what the pairing is."
  },
  {
   "property": "C128",
   "status": "proved",
   "theorems": [
    "GS.C128_into_affine",
    "GS.C128_formulas",
    "GS.C128_multiplication",
    "GS.C128_sums",
    "GS.C128_glv",
    "GS.C128_tests",
    "GS.C128_bls_carries",
    "GS.C128_target",
    "GS.C128_bls_verify",
    "GS.C128_read",
    "GS.C128_bls_sound",
    "GS.C128_bls_prove",
    "GS.C128_bls_honest",
    "GS.C128_bls_generate",
    "GS.C128_bls_received"
   ],
   "note": "with the formulas of ark-ec written over the operations of C127, each of which commutes with reading the words. Words are one for each element, so that what the words of a sum stand for (C122) says which words they are; the prover, the verifier with its panics and the programs about statements are those of `Verif/Model/Raw.lean`, `Verif/Model/RawProve.lean` and `Verif/Model/Ark.lean` at words, and C121, C124 and C125 are carried over. Scalars are field elements still; C129 has their words."
  },
  {
   "property": "C129",
   "status": "proved",
   "theorems": [
    "GS.C129_field",
    "GS.C129_bits",
    "GS.C129_carries",
    "GS.C129_verify",
    "GS.C129_prime",
    "GS.C129_prove",
    "GS.C129_honest",
    "GS.C129_same_crs",
    "GS.C129_generate",
    "GS.C129_codec",
    "GS.C129_sound",
    "GS.C129_received"
   ],
   "note": "by making the words of scalars a field whose operations are the word programs of C126, carried over by the injection that reads words; the groups are vector spaces over it and the pairing is bilinear over it, so that all that is proved for any field holds at words. The bits of `Verif/Model/Bits.lean` are those of the number (`Verif/Lemmas/Bits.lean`); C121, C124 and C125 are then used at words of scalars and of points together."
  },
  {
   "property": "C130",
   "status": "proved",
   "theorems": [
    "GS.C130_pow",
    "GS.C130_sqrt",
    "GS.C130_sqrt2",
    "GS.C130_points",
    "GS.C130_target",
    "GS.C130_receive",
    "GS.C130_ser",
    "GS.C130_sound",
    "GS.C130_received",
    "GS.C130_draws",
    "GS.C130_drawn",
    "GS.C130_generate",
    "GS.C130_generated"
   ],
   "note": "by a relation between formats of two types (`Verif/Spec/CodecMaps.lean`), which passes from points and target elements to pairs, vectors, equations, CRSs and messages (`Verif/Lemmas/CodecMaps.lean`). That points are so related follows for any coordinates and curve that stand for those of a field (`CurveFor`); powers go bit by bit, and square roots by C120. C129 is then used for what is read. Drawn words are compared word by word with C119's."
  },
  {
   "property": "C131",
   "status": "proved",
   "theorems": [
    "GS.C131_sent",
    "GS.C131_honest",
    "GS.C131_sound",
    "GS.C131_adaptive_soundness",
    "GS.C131_games",
    "GS.C131_indistinguishable",
    "GS.C131_zero_knowledge"
   ],
   "note": "by C125's program on words (C129), whose bytes are those of C130. Words are a field, so that C60, C12 and C63 apply to them; averages over scalars in words are those over residues, so that the CRS games and the advantages against SXDH are those of C125. Sending and receiving statements is not in the library: as in C125, two messages are sent, without the randomness, and the verifier is called for each equation."
  }
 ]
}