import Verif.Props.Matrices
import Verif.Props.Commitments
import Verif.Props.Completeness
import Verif.Props.Serialization

/-!
# The repository's own tests, run against the model

Each `example` is one test of /repo (named in its comment), with the test's random values universally quantified and
its literals kept.  They are evidence that the model computes what the code computes; no property of
properties.jsonl rests on them.  Numeric literals are elements of an arbitrary field `F`, so a check is not tied to one
characteristic.  Serialization tests are instances of C41 and are not repeated, except for `EquType`.
-/

set_option linter.unusedSectionVars false

namespace GS.Check
variable {F G G1 G2 GT : Type} [Field F] [AddCommGroup G] [Module F G] [AddCommGroup G1] [Module F G1]
  [AddCommGroup G2] [Module F G2] [AddCommGroup GT] [Module F GT]

/-! ## `com` tests, /repo/src/data_structures.rs:944-1602 -/

-- test_B1_add_zero, test_B2_add_zero
example [DecidableEq G] (a : Com G) : (Com.zero : Com G).isZero = true ∧ a + Com.zero = a := by
  constructor
  · simp [Com.isZero, Com.eq, Com.zero, show (0 : Com G) = Com.zero from rfl]
  · show Com.add a Com.zero = a
    simp [Com.add, Com.zero]

-- test_BT_add_zero
example [DecidableEq GT] (a : ComT GT) : (ComT.zero : ComT GT).isZero = true ∧ a + ComT.zero = a := by
  constructor
  · simp [ComT.isZero, ComT.eq, ComT.zero, show (0 : ComT GT) = ComT.zero from rfl]
  · show ComT.add a ComT.zero = a
    simp [ComT.add, ComT.zero]

-- test_B1_add, test_B2_add
example (a b : Com G) : a + b = ⟨a.c0 + b.c0, a.c1 + b.c1⟩ ∧ a + b = b + a :=
  ⟨rfl, by show Com.add a b = Com.add b a; simp [Com.add, add_comm]⟩

-- test_BT_add
example (a b : ComT GT) :
    a + b = ⟨a.t0 + b.t0, a.t1 + b.t1, a.t2 + b.t2, a.t3 + b.t3⟩ ∧ a + b = b + a :=
  ⟨rfl, by show ComT.add a b = ComT.add b a; simp [ComT.add, add_comm]⟩

-- test_B1_sum, test_B2_sum
example (a b c : Com G) : rustSum [a, b, c] = a + b + c := by
  show Com.add (Com.add (Com.add Com.zero a) b) c = Com.add (Com.add a b) c
  simp [Com.add, Com.zero]

-- test_BT_sum
example (a b c : ComT GT) : rustSum [a, b, c] = a + b + c := by
  show ComT.add (ComT.add (ComT.add ComT.zero a) b) c = ComT.add (ComT.add a b) c
  simp [ComT.add, ComT.zero]

-- test_B1_neg, test_B2_neg
example [DecidableEq G] (b : Com G) : (b + -b).isZero = true := by
  show (Com.add b (Com.neg b)).isZero = true
  simp [Com.isZero, Com.eq, Com.add, Com.neg, show (0 : Com G) = Com.zero from rfl, Com.zero]

-- test_BT_neg
example [DecidableEq GT] (b : ComT GT) : (b + -b).isZero = true := by
  show (ComT.add b (ComT.neg b)).isZero = true
  simp [ComT.isZero, ComT.eq, ComT.add, ComT.neg, show (0 : ComT GT) = ComT.zero from rfl, ComT.zero]

-- test_B1_sub, test_B2_sub
example (a b : Com G) : a - b = ⟨a.c0 + -b.c0, a.c1 + -b.c1⟩ ∧ a - b = -(b - a) :=
  ⟨rfl, by show Com.sub a b = Com.neg (Com.sub b a); simp [Com.sub, Com.neg, Com.add]⟩

-- test_BT_sub
example (a b : ComT GT) :
    a - b = ⟨a.t0 - b.t0, a.t1 - b.t1, a.t2 - b.t2, a.t3 - b.t3⟩ ∧ a - b = -(b - a) :=
  ⟨rfl, by show ComT.sub a b = ComT.neg (ComT.sub b a); simp [ComT.sub, ComT.neg]⟩

-- test_B1_scalar_mul, test_B2_scalar_mul
example (b : Com G) (s : F) : b.scalarMul s = ⟨s • b.c0, s • b.c1⟩ := rfl

variable (e : G1 →ₗ[F] G2 →ₗ[F] GT)

-- test_B_pairing_zero_G1, test_B_pairing_zero_G2
example (b1 : Com G1) (b2 : Com G2) :
    ComT.pairing e ⟨0, 0⟩ b2 = ⟨0, 0, 0, 0⟩ ∧ ComT.pairing e b1 ⟨0, 0⟩ = ⟨0, 0, 0, 0⟩ := by
  simp [ComT.pairing]

-- test_B_pairing_commit
example (x : G1) (y : G2) : ComT.pairing e ⟨0, x⟩ ⟨0, y⟩ = ⟨0, 0, 0, e x y⟩ := by simp [ComT.pairing]

-- test_B_pairing_rand
example (b1 : Com G1) (b2 : Com G2) :
    ComT.pairing e b1 b2 = ⟨e b1.c0 b2.c0, e b1.c0 b2.c1, e b1.c1 b2.c0, e b1.c1 b2.c1⟩ := by
  simp [ComT.pairing]

-- test_B_pairing_sum
example (x1 x2 : Com G1) (y1 y2 : Com G2) :
    ComT.pairingSum e [x1, x2] [y1, y2] = .ok (rustSum [ComT.pairing e x1 y1, ComT.pairing e x2 y2]) := by
  obtain ⟨a1, a2⟩ := x1; obtain ⟨b1, b2⟩ := x2; obtain ⟨c1, c2⟩ := y1; obtain ⟨d1, d2⟩ := y2
  rfl

-- test_B_into_matrix
example (b1 : Com G1) (b2 : Com G2) (bt : ComT GT) :
    b1.asColVec = [[b1.c0], [b1.c1]] ∧ b2.asColVec = [[b2.c0], [b2.c1]] ∧
      bt.asMatrix = [[bt.t0, bt.t1], [bt.t2, bt.t3]] := ⟨rfl, rfl, rfl⟩

-- test_B_from_matrix
example (x0 x1 : G1) (t0 t1 t2 t3 : GT) :
    Com.fromMatrix [[x0], [x1]] = .ok ⟨x0, x1⟩ ∧
      ComT.fromMatrix [[t0, t1], [t2, t3]] = .ok ⟨t0, t1, t2, t3⟩ := ⟨rfl, rfl⟩

-- test_batched_linear_maps
example (x0 x1 : G1) (y0 y1 : G2) :
    Com1.batchLinearMap [x0, x1] = [Com1.linearMap x0, Com1.linearMap x1] ∧
      Com2.batchLinearMap [y0, y1] = [Com2.linearMap y0, Com2.linearMap y1] := ⟨rfl, rfl⟩

section key
variable (u0 u1 : Com G1) (v0 v1 : Com G2) (g1 : G1) (g2 : G2) (gt : GT)

-- test_batched_scalar_linear_maps
example (s0 s1 : F) : let key : CRS G1 G2 GT := ⟨[u0, u1], [v0, v1], g1, g2, gt⟩
    Com1.batchScalarLinearMap [s0, s1] key = (do
      pure [← Com1.scalarLinearMap s0 key, ← Com1.scalarLinearMap s1 key]) ∧
    Com2.batchScalarLinearMap [s0, s1] key = (do
      pure [← Com2.scalarLinearMap s0 key, ← Com2.scalarLinearMap s1 key]) := ⟨rfl, rfl⟩

-- test_PPE_linear_maps
example (a1 : G1) (a2 : G2) :
    Com1.linearMap a1 = ⟨0, a1⟩ ∧ Com2.linearMap a2 = ⟨0, a2⟩ ∧
      ComT.linearMapPPE (e a1 a2) = ⟨0, 0, 0, e a1 a2⟩ := ⟨rfl, rfl, rfl⟩

-- test_MSMEG1_linear_maps
example (a1 : G1) (a2 : F) : let key : CRS G1 G2 GT := ⟨[u0, u1], [v0, v1], g1, g2, gt⟩
    Com1.linearMap a1 = ⟨0, a1⟩ ∧
    Com2.scalarLinearMap a2 key = .ok ⟨a2 • v1.c0, a2 • (v1.c1 + g2)⟩ ∧
    ComT.linearMapMSMEG1 e (a2 • a1) key = .ok ⟨0, 0, e (a2 • a1) v1.c0, e (a2 • a1) (v1.c1 + g2)⟩ := by
  refine ⟨rfl, ?_, ?_⟩
  · show Except.ok (Com.scalarMul (Com.add v1 (Com2.linearMap g2)) a2) = _
    simp [Com.scalarMul, Com.add, Com2.linearMap]
  · show Except.ok (ComT.pairing e (Com1.linearMap (a2 • a1)) (Com.scalarMul (Com.add v1 (Com2.linearMap g2)) (1 : F)))
      = _
    simp [ComT.pairing, Com.scalarMul, Com.add, Com1.linearMap, Com2.linearMap]

-- test_MSMEG2_linear_maps
example (a1 : F) (a2 : G2) : let key : CRS G1 G2 GT := ⟨[u0, u1], [v0, v1], g1, g2, gt⟩
    Com1.scalarLinearMap a1 key = .ok ⟨a1 • u1.c0, a1 • (u1.c1 + g1)⟩ ∧
    Com2.linearMap a2 = ⟨0, a2⟩ ∧
    ComT.linearMapMSMEG2 e (a1 • a2) key = .ok ⟨0, e u1.c0 (a1 • a2), 0, e (u1.c1 + g1) (a1 • a2)⟩ := by
  refine ⟨?_, rfl, ?_⟩
  · show Except.ok (Com.scalarMul (Com.add u1 (Com1.linearMap g1)) a1) = _
    simp [Com.scalarMul, Com.add, Com1.linearMap]
  · show Except.ok (ComT.pairing e (Com.scalarMul (Com.add u1 (Com1.linearMap g1)) (1 : F)) (Com2.linearMap (a1 • a2)))
      = _
    simp [ComT.pairing, Com.scalarMul, Com.add, Com1.linearMap, Com2.linearMap]

-- test_QuadEqu_linear_maps
example (a1 a2 : F) : let key : CRS G1 G2 GT := ⟨[u0, u1], [v0, v1], g1, g2, gt⟩
    let W1 : Com G1 := ⟨u1.c0, u1.c1 + g1⟩
    let W2 : Com G2 := ⟨v1.c0, v1.c1 + g2⟩
    Com1.scalarLinearMap a1 key = .ok ⟨a1 • W1.c0, a1 • W1.c1⟩ ∧
    Com2.scalarLinearMap a2 key = .ok ⟨a2 • W2.c0, a2 • W2.c1⟩ ∧
    ComT.linearMapQuad e (a1 * a2) key = .ok (ComT.pairing e (W1.scalarMul a1) (W2.scalarMul a2)) ∧
    ComT.linearMapQuad e (a1 * a2) key = .ok (ComT.pairing e W1 (W2.scalarMul (a1 * a2))) := by
  refine ⟨?_, ?_, ?_, ?_⟩
  · show Except.ok (Com.scalarMul (Com.add u1 (Com1.linearMap g1)) a1) = _
    simp [Com.scalarMul, Com.add, Com1.linearMap]
  · show Except.ok (Com.scalarMul (Com.add v1 (Com2.linearMap g2)) a2) = _
    simp [Com.scalarMul, Com.add, Com2.linearMap]
  all_goals
    show Except.ok (ComT.pairing e (Com.scalarMul (Com.add u1 (Com1.linearMap g1)) (1 : F))
      (Com.scalarMul (Com.scalarMul (Com.add v1 (Com2.linearMap g2)) (1 : F)) (a1 * a2))) = _
    simp [ComT.pairing, Com.scalarMul, Com.add, Com1.linearMap, Com2.linearMap, smul_smul, mul_comm]

end key

/-! ## `matrix` tests, /repo/src/data_structures.rs:1604-2640 -/

-- test_col_vec_to_vec, test_vec_to_col_vec
example : colVecToVec [[(1 : F)], [2], [3]] = .ok [1, 2, 3] ∧ vecToColVec [(1 : F), 2, 3] = [[1], [2], [3]] :=
  ⟨rfl, rfl⟩

-- test_field_matrix_left_mul_entry, test_field_matrix_right_mul_entry
example (sch : Scheduler) (par : Bool) :
    FieldMat.rightMul sch [[(1 : F), 2, 3]] [[4], [5], [6]] par = .ok [[32]] ∧
      FieldMat.leftMul sch [[(4 : F)], [5], [6]] [[1, 2, 3]] par = .ok [[32]] := by
  have hr := C24_field_right_mul (m := 1) (k := 3) (n := 1) (by decide) (by decide) (by decide) sch par
    !![(1 : F), 2, 3] !![4; 5; 6]
  have hl := C24_field_left_mul (m := 1) (k := 3) (n := 1) (by decide) (by decide) (by decide) sch par
    !![(1 : F), 2, 3] !![4; 5; 6]
  simp [rows, Matrix.mul_apply, Fin.sum_univ_succ, List.ofFn_succ] at hr hl
  norm_num at hr hl
  exact ⟨hr, hl⟩

-- test_field_matrix_left_mul, _right_mul, _left_mul_par, _right_mul_par
example (sch : Scheduler) (par : Bool) :
    FieldMat.rightMul sch [[(1 : F), 2, 3], [4, 5, 6]] [[7, 8, 9, 10], [11, 12, 13, 14], [15, 16, 17, 18]] par
      = .ok [[74, 80, 86, 92], [173, 188, 203, 218]] ∧
    FieldMat.leftMul sch [[(7 : F), 8, 9, 10], [11, 12, 13, 14], [15, 16, 17, 18]] [[1, 2, 3], [4, 5, 6]] par
      = .ok [[74, 80, 86, 92], [173, 188, 203, 218]] := by
  have hr := C24_field_right_mul (m := 2) (k := 3) (n := 4) (by decide) (by decide) (by decide) sch par
    !![(1 : F), 2, 3; 4, 5, 6] !![7, 8, 9, 10; 11, 12, 13, 14; 15, 16, 17, 18]
  have hl := C24_field_left_mul (m := 2) (k := 3) (n := 4) (by decide) (by decide) (by decide) sch par
    !![(1 : F), 2, 3; 4, 5, 6] !![7, 8, 9, 10; 11, 12, 13, 14; 15, 16, 17, 18]
  simp [rows, Matrix.mul_apply, Fin.sum_univ_succ, List.ofFn_succ] at hr hl
  norm_num at hr hl
  exact ⟨hr, hl⟩

/-- `Com1::<F>(G1Affine::zero(), affine_group_new!(g, "k"))` of the tests. -/
def cg (g : G) (k : F) : Com G := ⟨0, k • g⟩

-- test_B1_matrix_left_mul_entry, test_B1_matrix_right_mul_entry (sequential, as in the tests)
example (sch : Scheduler) (g : G) :
    ComMat.leftMul sch [[cg g (4 : F)], [cg g (5 : F)], [cg g (6 : F)]] [[(1 : F), 2, 3]] false = .ok [[cg g (32 : F)]] ∧
    ComMat.rightMul sch [[cg g (1 : F), cg g (2 : F), cg g (3 : F)]] [[(4 : F)], [5], [6]] false
      = .ok [[cg g (32 : F)]] := by
  constructor
  · show Except.ok [[Com.add (Com.add (Com.add Com.zero ((cg g (4 : F)).scalarMul (1 : F)))
      ((cg g (5 : F)).scalarMul (2 : F))) ((cg g (6 : F)).scalarMul (3 : F))]] = _
    simp only [cg, Com.scalarMul, Com.add, Com.zero, smul_smul, smul_zero, add_zero, zero_add, ← add_smul]
    norm_num
  · show Except.ok [[Com.add (Com.add (Com.add Com.zero ((cg g (1 : F)).scalarMul (4 : F)))
      ((cg g (2 : F)).scalarMul (5 : F))) ((cg g (3 : F)).scalarMul (6 : F))]] = _
    simp only [cg, Com.scalarMul, Com.add, Com.zero, smul_smul, smul_zero, add_zero, zero_add, ← add_smul]
    norm_num

-- test_field_matrix_scalar_mul
example : FieldMat.scalarMul [[(1 : F), 2, 3], [4, 5, 6], [7, 8, 9]] 3
    = .ok [[3, 6, 9], [12, 15, 18], [21, 24, 27]] := by
  show Except.ok [[(1 : F) * 3, 2 * 3, 3 * 3], [4 * 3, 5 * 3, 6 * 3], [7 * 3, 8 * 3, 9 * 3]] = _
  norm_num

-- test_B1_matrix_scalar_mul, test_B2_matrix_scalar_mul
example (g : G) :
    ComMat.scalarMul (List.replicate 3 (List.replicate 3 (cg g (1 : F)))) (3 : F)
      = .ok (List.replicate 3 (List.replicate 3 (cg g (3 : F)))) := by
  have h : (cg g (1 : F)).scalarMul (3 : F) = cg g (3 : F) := by simp [cg, Com.scalarMul]
  show Except.ok (List.replicate 3 (List.replicate 3 ((cg g (1 : F)).scalarMul (3 : F)))) = _
  rw [h]

-- test_field_transpose_vec, test_field_matrix_transpose
example : FieldMat.transpose [[(1 : F), 2, 3]] = .ok [[1], [2], [3]] ∧
    FieldMat.transpose [[(1 : F), 2, 3], [4, 5, 6], [7, 8, 9]] = .ok [[1, 4, 7], [2, 5, 8], [3, 6, 9]] := ⟨rfl, rfl⟩

-- test_B1_transpose_vec, test_B1_matrix_transpose, test_B2_transpose_vec, test_B2_matrix_transpose
example (c1 c2 c3 c4 c5 c6 c7 c8 c9 : Com G) :
    ComMat.transpose [[c1, c2, c3]] = .ok [[c1], [c2], [c3]] ∧
    ComMat.transpose [[c1, c2, c3], [c4, c5, c6], [c7, c8, c9]] = .ok [[c1, c4, c7], [c2, c5, c8], [c3, c6, c9]] :=
  ⟨rfl, rfl⟩

-- test_field_matrix_neg
example : FieldMat.neg [[(1 : F), 2, 3], [4, 5, 6], [7, 8, 9]]
    = .ok [[-1, -2, -3], [-4, -5, -6], [-7, -8, -9]] := rfl

-- test_B1_matrix_neg, test_B2_matrix_neg
example (x1 x2 x3 x4 : G) :
    ComMat.neg [[(⟨0, x1⟩ : Com G), ⟨0, x2⟩], [⟨0, x3⟩, ⟨0, x4⟩]] = .ok [[⟨0, -x1⟩, ⟨0, -x2⟩], [⟨0, -x3⟩, ⟨0, -x4⟩]] := by
  have h (x : G) : (⟨0, -x⟩ : Com G) = -⟨0, x⟩ := by show _ = Com.neg _; simp [Com.neg]
  simp only [h]
  rfl

-- test_field_matrix_add
example :
    FieldMat.add [[(1 : F), 2, 3], [4, 5, 6], [7, 8, 9]] [[10, 11, 12], [13, 14, 15], [16, 17, 18]]
      = .ok [[11, 13, 15], [17, 19, 21], [23, 25, 27]] ∧
    FieldMat.add [[(10 : F), 11, 12], [13, 14, 15], [16, 17, 18]] [[1, 2, 3], [4, 5, 6], [7, 8, 9]]
      = .ok [[11, 13, 15], [17, 19, 21], [23, 25, 27]] := by
  constructor
  · show Except.ok [[(1 : F) + 10, 2 + 11, 3 + 12], [4 + 13, 5 + 14, 6 + 15], [7 + 16, 8 + 17, 9 + 18]] = _
    norm_num
  · show Except.ok [[(10 : F) + 1, 11 + 2, 12 + 3], [13 + 4, 14 + 5, 15 + 6], [16 + 7, 17 + 8, 18 + 9]] = _
    norm_num

-- test_B1_matrix_add, test_B2_matrix_add (first two columns and rows)
example (g : G) :
    ComMat.add [[cg g (1 : F), cg g (2 : F)], [cg g (4 : F), cg g (5 : F)]]
      [[cg g (10 : F), cg g (11 : F)], [cg g (13 : F), cg g (14 : F)]]
      = .ok [[cg g (11 : F), cg g (13 : F)], [cg g (17 : F), cg g (19 : F)]] := by
  have h (a b : F) : cg g a + cg g b = cg g (a + b) := by
    show Com.add _ _ = _
    simp [cg, Com.add, add_smul]
  show Except.ok [[cg g (1 : F) + cg g (10 : F), cg g (2 : F) + cg g (11 : F)],
    [cg g (4 : F) + cg g (13 : F), cg g (5 : F) + cg g (14 : F)]] = _
  simp only [h]
  norm_num

/-! ## Generator tests, /repo/src/generator.rs:136-184

The tests also assert that the drawn points are nonzero, which holds for the test's seed and not for every RNG (C49). -/

section rng
variable {ρ : Type} [Rng ρ F G1 G2]

-- test_valid_generators
example (rng : ρ) :
    (generateCrs e rng).1.gt_gen = e (generateCrs e rng).1.g1_gen (generateCrs e rng).1.g2_gen := rfl

-- test_valid_binding_CRS, with the draws repeated from the same RNG state
example (rng : ρ) :
    let crs := (generateCrs e rng).1
    let (p1, rng2) := Rng.randG1 F G2 rng
    let (p2, rng2) := Rng.randG2 F G1 rng2
    let (a1, rng2) := Rng.randF (F := F) G1 G2 rng2
    let (a2, rng2) := Rng.randF (F := F) G1 G2 rng2
    let (t1, rng2) := Rng.randF (F := F) G1 G2 rng2
    let (t2, _) := Rng.randF (F := F) G1 G2 rng2
    let (v1, v2) := prepareRealBindingKey p1 p2 (a1 • p1) t1 (a2 • p2) t2
    (crs.u.map (·.c1))[1]? = some v1 ∧ (crs.v.map (·.c1))[1]? = some v2 := ⟨rfl, rfl⟩

/-! ## Commitment tests, /repo/src/prover/commit.rs:336-550 -/

-- test_commit_append_com1, test_commit_append_com2
example (g : G) (r11 r12 r21 r22 : F) :
    (Commit.mk [⟨r11 • g, r12 • g⟩] [[r11, r12]]).append ⟨[⟨r21 • g, r22 • g⟩], [[r21, r22]]⟩
      = .ok (⟨[⟨r11 • g, r12 • g⟩, ⟨r21 • g, r22 • g⟩], [[r11, r12], [r21, r22]]⟩, ⟨[], []⟩) := rfl

-- test_commit_G1_batching
example (key : CRS G1 G2 GT) (hu : key.u.length = 2) (x1 x2 x3 : G1) (rng : ρ) :
    batchCommitG1 (F := F) [x1, x2, x3] key rng = (do
      let (c1, rng) ← commitG1 (F := F) x1 key rng
      let (c2, rng) ← commitG1 (F := F) x2 key rng
      let (c3, rng) ← commitG1 (F := F) x3 key rng
      let (c, _) ← c1.append c2
      let (c, _) ← c.append c3
      pure (c, rng)) := by
  rw [C18_batch_G1 key hu]
  rcases key with ⟨_ | ⟨u0, _ | ⟨u1, _ | _⟩⟩, v, g1, g2, gt⟩ <;> simp at hu
  rfl

-- test_commit_G2_batching
example (key : CRS G1 G2 GT) (hv : key.v.length = 2) (y1 y2 y3 : G2) (rng : ρ) :
    batchCommitG2 (F := F) [y1, y2, y3] key rng = (do
      let (c1, rng) ← commitG2 (F := F) y1 key rng
      let (c2, rng) ← commitG2 (F := F) y2 key rng
      let (c3, rng) ← commitG2 (F := F) y3 key rng
      let (c, _) ← c1.append c2
      let (c, _) ← c.append c3
      pure (c, rng)) := by
  rw [C18_batch_G2 key hv]
  rcases key with ⟨u, _ | ⟨v0, _ | ⟨v1, _ | _⟩⟩, g1, g2, gt⟩ <;> simp at hv
  rfl

-- test_commit_scalar_B1_batching
example (key : CRS G1 G2 GT) (hu : key.u.length = 2) (x1 x2 x3 : F) (rng : ρ) :
    batchCommitScalarToB1 [x1, x2, x3] key rng = (do
      let (c1, rng) ← commitScalarToB1 x1 key rng
      let (c2, rng) ← commitScalarToB1 x2 key rng
      let (c3, rng) ← commitScalarToB1 x3 key rng
      let (c, _) ← c1.append c2
      let (c, _) ← c.append c3
      pure (c, rng)) := by
  rw [C18_batch_scalar_B1 key hu.ge]
  rcases key with ⟨_ | ⟨u0, _ | ⟨u1, _ | _⟩⟩, v, g1, g2, gt⟩ <;> simp at hu
  rfl

-- test_commit_scalar_B2_batching
example (key : CRS G1 G2 GT) (hv : key.v.length = 2) (y1 y2 y3 : F) (rng : ρ) :
    batchCommitScalarToB2 [y1, y2, y3] key rng = (do
      let (c1, rng) ← commitScalarToB2 y1 key rng
      let (c2, rng) ← commitScalarToB2 y2 key rng
      let (c3, rng) ← commitScalarToB2 y3 key rng
      let (c, _) ← c1.append c2
      let (c, _) ← c.append c3
      pure (c, rng)) := by
  rw [C18_batch_scalar_B2 key hv.ge]
  rcases key with ⟨u, _ | ⟨v0, _ | ⟨v1, _ | _⟩⟩, g1, g2, gt⟩ <;> simp at hv
  rfl

/-! ## Prover tests, /repo/src/prover/prove.rs:509-935 -/

variable [DecidableEq GT] (sch : Nat → Scheduler) (sch' : Scheduler) (crs : CRS G1 G2 GT) (rng : ρ)

-- test_PPE_cproof_is_commit_and_prove
example (equ : PPE F G1 G2 GT) (x : List G1) (y : List G2) :
    equ.commitAndProve sch x y crs rng = (do
      let (xcoms, rng) ← batchCommitG1 (F := F) x crs rng
      let (ycoms, rng) ← batchCommitG2 (F := F) y crs rng
      let (proof, rng) ← equ.prove sch x y xcoms ycoms crs rng
      pure (⟨xcoms, ycoms, [proof]⟩, rng)) := rfl

-- test_MSMEG1_cproof_is_commit_and_prove
example (equ : MSMEG1 F G1) (x : List G1) (y : List F) :
    equ.commitAndProve sch x y crs rng = (do
      let (xcoms, rng) ← batchCommitG1 (F := F) x crs rng
      let (ycoms, rng) ← batchCommitScalarToB2 y crs rng
      let (proof, rng) ← equ.prove sch x y xcoms ycoms crs rng
      pure (⟨xcoms, ycoms, [proof]⟩, rng)) := rfl

-- test_MSMEG2_cproof_is_commit_and_prove
example (equ : MSMEG2 F G2) (x : List F) (y : List G2) :
    equ.commitAndProve sch x y crs rng = (do
      let (xcoms, rng) ← batchCommitScalarToB1 x crs rng
      let (ycoms, rng) ← batchCommitG2 (F := F) y crs rng
      let (proof, rng) ← equ.prove sch x y xcoms ycoms crs rng
      pure (⟨xcoms, ycoms, [proof]⟩, rng)) := rfl

-- test_quadratic_cproof_is_commit_and_prove
example (equ : QuadEqu F) (x y : List F) :
    equ.commitAndProve sch x y crs rng = (do
      let (xcoms, rng) ← batchCommitScalarToB1 x crs rng
      let (ycoms, rng) ← batchCommitScalarToB2 y crs rng
      let (proof, rng) ← equ.prove sch x y xcoms ycoms crs rng
      pure (⟨xcoms, ycoms, [proof]⟩, rng)) := rfl

/-! ## Statement tests, /repo/src/statement.rs:209-400 -/

-- test_PPE_equation_type, test_MSMEG1_equation_type, test_MSMEG2_equation_type, test_quadratic_equation_type
example (p : PPE F G1 G2 GT) (m1 : MSMEG1 F G1) (m2 : MSMEG2 F G2) (q : QuadEqu F) :
    p.getType = .PairingProduct ∧ m1.getType = .MultiScalarG1 ∧ m2.getType = .MultiScalarG2 ∧
      q.getType = .Quadratic := ⟨rfl, rfl, rfl, rfl⟩

-- test_equtypes_serde
example (m : Compress) : ∀ t : EquType, EquType.codec.de m .Yes (EquType.codec.ser m t) = .ok (t, []) := by
  intro t
  rw [(C40_serialize m t).1]
  exact (C40_deserialize_iff m .Yes _ t []).2 rfl

/-! ## Integration tests, /repo/tests/prover.rs -/

-- pairing_product_equation_verifies, for any seeds of the CRS and of the proof
example (rng0 : ρ) (r s : F) :
    let crs := (generateCrs e rng0).1
    let x : List G1 := [(2 : F) • crs.g1_gen, (3 : F) • crs.g1_gen]
    let y : List G2 := [(4 : F) • crs.g2_gen]
    let c1 := r • crs.g1_gen
    let c2 := s • crs.g2_gen
    let equ : PPE F G1 G2 GT := ⟨[c1], [0, c2], [[5], [0]],
      e ((3 : F) • crs.g1_gen) c2 + e c1 ((4 : F) • crs.g2_gen) +
        e ((2 : F) • crs.g1_gen) ((5 : F) • (4 : F) • crs.g2_gen)⟩
    ∃ cp rng', equ.commitAndProve sch x y crs rng = .ok (cp, rng') ∧ equ.verify e sch' cp crs = .ok true := by
  refine C01_ppe_complete_generated e _ _ _ rng0 rng sch sch' (by simp) (by simp) ⟨rfl, rfl, rfl, by simp⟩ ?_
  simp only [PPE.Holds, equLhs]
  simp [smul_smul, mul_comm, mul_left_comm]
  abel

-- multi_scalar_mult_equation_G1_verifies
example (rng0 : ρ) (r s : F) :
    let crs := (generateCrs e rng0).1
    let x : List G1 := [(2 : F) • crs.g1_gen, (3 : F) • crs.g1_gen]
    let y : List F := [4]
    let c1 := r • crs.g1_gen
    let equ : MSMEG1 F G1 := ⟨[c1], [0, s], [[5], [0]],
      s • (3 : F) • crs.g1_gen + (4 : F) • c1 + ((4 : F) * 5) • (2 : F) • crs.g1_gen⟩
    ∃ cp rng', equ.commitAndProve sch x y crs rng = .ok (cp, rng') ∧ equ.verify e sch' cp crs = .ok true := by
  refine C02_msmeg1_complete_generated e _ _ _ rng0 rng sch sch' (by simp) (by simp) ⟨rfl, rfl, rfl, by simp⟩ ?_
  simp only [MSMEG1.Holds, equLhs]
  simp [smul_smul, mul_comm, mul_assoc]
  abel

-- multi_scalar_mult_equation_G2_verifies
example (rng0 : ρ) (r s : F) :
    let crs := (generateCrs e rng0).1
    let x : List F := [2, 3]
    let y : List G2 := [(4 : F) • crs.g2_gen]
    let c2 := s • crs.g2_gen
    let equ : MSMEG2 F G2 := ⟨[r], [0, c2], [[5], [0]],
      (3 : F) • c2 + r • (4 : F) • crs.g2_gen + ((2 : F) * 5) • (4 : F) • crs.g2_gen⟩
    ∃ cp rng', equ.commitAndProve sch x y crs rng = .ok (cp, rng') ∧ equ.verify e sch' cp crs = .ok true := by
  refine C03_msmeg2_complete_generated e _ _ _ rng0 rng sch sch' (by simp) (by simp) ⟨rfl, rfl, rfl, by simp⟩ ?_
  simp only [MSMEG2.Holds, equLhs]
  simp [smul_smul, mul_comm, mul_left_comm]
  abel

-- quadratic_equation_verifies
example (rng0 : ρ) (r s : F) :
    let crs := (generateCrs e rng0).1
    let x : List F := [2, 3]
    let y : List F := [4]
    let equ : QuadEqu F := ⟨[r], [0, s], [[5], [0]], s * 3 + 4 * r + 4 * 2 * 5⟩
    ∃ cp rng', equ.commitAndProve sch x y crs rng = .ok (cp, rng') ∧ equ.verify e sch' cp crs = .ok true := by
  refine C04_quad_complete_generated e _ _ _ rng0 rng sch sch' (by simp) (by simp) ⟨rfl, rfl, rfl, by simp⟩ ?_
  simp only [QuadEqu.Holds, equLhs]
  simp
  ring

end rng
end GS.Check
