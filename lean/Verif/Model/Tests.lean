import Verif.Model.Eq
import Verif.Model.Generator
import Verif.Model.Serialize
import Verif.Model.Verify

/-!
# The tests of the repository

The test functions of src/data_structures.rs:915-2634, src/generator.rs:121-208, src/statement.rs:194-392,
src/prover/commit.rs:258-549, src/prover/prove.rs:490-972, tests/commit.rs and tests/prover.rs as programs that call
the modelled functions.  A test returns (it passes) or panics.

Simplifications.  `test_rng()` is not modelled: a test takes the state of the generator that `test_rng()` returned, and
a test that calls it twice takes two.  `Fr::from_str("n").unwrap()` is the numeral `n`; `into_affine`, `into` and
`into_group` are the identity, as everywhere in this model; `GT::rand` is a parameter `randT`.  Where two test functions
differ only in the group (`Com1`/`Com2`, `G1`/`G2`) one definition serves for both.  `unwrap` of an error is a panic.
-/

namespace GS.Tests
open GS

/-- `assert!(b)`, e.g. src/data_structures.rs:954; `assert_eq!` and `assert_ne!` call it with `==` and `!=`. -/
def assert (b : Bool) : Res Unit := if b then .ok () else .error .assertFailed

/-- `unwrap()` of a serialization result, e.g. src/data_structures.rs:1279. -/
def unwrap {α : Type} : Except SerErr α → Res α
  | .ok a => .ok a
  | .error _ => .error .assertFailed

/-- Serialize, deserialize and compare, in compressed and in uncompressed form, src/data_structures.rs:1277-1285;
the same lines occur in all tests about serialization. -/
def serde {α : Type} (c : Codec α) (eq : α → α → Bool) (a : α) : Res Unit := do
  let c_bytes := c.ser .Yes a
  let a_de ← unwrap (c.de .Yes .Yes c_bytes)
  assert (eq a a_de.1)
  let u_bytes := c.ser .No a
  let a_de ← unwrap (c.de .No .Yes u_bytes)
  assert (eq a a_de.1)

/-- `assert_matrix_dimensions!`, src/data_structures.rs:1638-1643. -/
def assertDims {α : Type} (mat : Matrix α) (rows cols : Nat) : Res Unit := do
  assert (mat.length == rows)
  let _ ← collect (fun r : List α => assert (r.length == cols)) mat

/-- A program with one generator, e.g. src/data_structures.rs:945. -/
abbrev Prog (ρ α : Type) := StateT ρ Res α

/-- A call with `&mut rng`, in a test that has `rng` and `rng2`: src/prover/commit.rs:442-443. -/
def on1 {ρ α : Type} (x : Prog ρ α) : Prog (ρ × ρ) α := fun s => do
  let (a, s1) ← x s.1
  pure (a, (s1, s.2))

/-- A call with `&mut rng2`: src/prover/commit.rs:442-443. -/
def on2 {ρ α : Type} (x : Prog ρ α) : Prog (ρ × ρ) α := fun s => do
  let (a, s2) ← x s.2
  pure (a, (s.1, s2))

/-! ## src/data_structures.rs, `mod SXDH_com_group`: one source group -/
section OneGroup
variable {ρ F G : Type} [Field F] [AddCommGroup G] [Module F G] [DecidableEq F] [DecidableEq G]

/-- Two elements from the generator, src/data_structures.rs:946-949. `g` is `G1Projective::rand` or `G2Projective::rand`. -/
def randCom (g : Prog ρ G) : Prog ρ (Com G) := do
  let c0 ← g
  let c1 ← g
  pure ⟨c0, c1⟩

/-- `test_B1_add_zero`, `test_B2_add_zero`, src/data_structures.rs:944-972. -/
def test_B_add_zero (g : Prog ρ G) : Prog ρ Unit := do
  let a ← randCom g
  let zero : Com G := ⟨0, 0⟩
  let asub := a + zero
  assert (zero.eq Com.zero)
  assert zero.isZero
  assert (a.eq asub)

/-- `test_B1_add`, `test_B2_add`, src/data_structures.rs:994-1028. -/
def test_B_add (g : Prog ρ G) : Prog ρ Unit := do
  let a ← randCom g
  let b ← randCom g
  let ab := a + b
  let ba := b + a
  assert (ab.eq ⟨a.c0 + b.c0, a.c1 + b.c1⟩)
  assert (ab.eq ba)

/-- `test_B1_sum`, `test_B2_sum`, src/data_structures.rs:1055-1097. -/
def test_B_sum (g : Prog ρ G) : Prog ρ Unit := do
  let a ← randCom g
  let b ← randCom g
  let c ← randCom g
  let abc_vec := [a, b, c]
  let abc := rustSum abc_vec
  assert (abc.eq (a + b + c))

/-- `test_B1_neg`, `test_B2_neg`, src/data_structures.rs:1130-1154. -/
def test_B_neg (g : Prog ρ G) : Prog ρ Unit := do
  let b ← randCom g
  let bneg := -b
  let zero := b + bneg
  assert zero.isZero

/-- `test_B1_sub`, `test_B2_sub`, src/data_structures.rs:1174-1208. -/
def test_B_sub (g : Prog ρ G) : Prog ρ Unit := do
  let a ← randCom g
  let b ← randCom g
  let ab := a - b
  let ba := b - a
  assert (ab.eq ⟨a.c0 + -b.c0, a.c1 + -b.c1⟩)
  assert (ab.eq (-ba))

/-- `test_B1_scalar_mul`, `test_B2_scalar_mul`, src/data_structures.rs:1235-1265. `fr` is `Fr::rand`. -/
def test_B_scalar_mul (g : Prog ρ G) (fr : Prog ρ F) : Prog ρ Unit := do
  let b ← randCom g
  let scalar ← fr
  let b0 := scalar • b.c0
  let b1 := scalar • b.c1
  let bres := b.scalarMul scalar
  let bexp : Com G := ⟨b0, b1⟩
  assert (bres.eq bexp)

/-- `test_B1_serde`, `test_B2_serde`, src/data_structures.rs:1269-1309. -/
def test_B_serde (g : Prog ρ G) (c : Codec G) : Prog ρ Unit := do
  let a ← randCom g
  serde (Com.codec c) Com.eq a

/-! ## src/data_structures.rs, `mod matrix`, in a commitment group -/

/-- `Com1::<F>(G1Affine::zero(), affine_group_new!(g1gen, "n"))`, src/data_structures.rs:1624-1628, 1964. -/
def emb (F : Type) [Field F] [Module F G] (gen : G) (n : Nat) : Com G := ⟨0, (n : F) • gen⟩

/-- `test_B1_matrix_left_mul_entry`, src/data_structures.rs:1951-1978. -/
def test_B1_matrix_left_mul_entry (F : Type) [Field F] [Module F G] (sch : Nat → Scheduler) (g : Prog ρ G) : Prog ρ Unit := do
  let g1gen ← g
  let lhs : Matrix F := [[1, 2, 3]]
  let rhs : Matrix (Com G) := [[emb F g1gen 4], [emb F g1gen 5], [emb F g1gen 6]]
  let exp : Matrix (Com G) := [[emb F g1gen 32]]
  let res ← ComMat.leftMul (sch 0) rhs lhs false
  assertDims res 1 1
  assert (vecEq (vecEq Com.eq) exp res)

/-- `test_B1_matrix_right_mul_entry`, src/data_structures.rs:1982-2006. -/
def test_B1_matrix_right_mul_entry (F : Type) [Field F] [Module F G] (sch : Nat → Scheduler) (g : Prog ρ G) : Prog ρ Unit := do
  let g1gen ← g
  let lhs : Matrix (Com G) := [[⟨0, g1gen⟩, emb F g1gen 2, emb F g1gen 3]]
  let rhs : Matrix F := [[4], [5], [6]]
  let exp : Matrix (Com G) := [[emb F g1gen 32]]
  let res ← ComMat.rightMul (sch 0) lhs rhs false
  assertDims res 1 1
  assert (vecEq (vecEq Com.eq) exp res)

/-- `test_B1_matrix_scalar_mul`, `test_B2_matrix_scalar_mul`, src/data_structures.rs:2050-2105. -/
def test_B_matrix_scalar_mul (F : Type) [Field F] [Module F G] (g : Prog ρ G) : Prog ρ Unit := do
  let scalar : F := 3
  let gen ← g
  let mat : Matrix (Com G) := List.replicate 3 (List.replicate 3 (emb F gen 1))
  let exp : Matrix (Com G) := List.replicate 3 (List.replicate 3 (emb F gen 3))
  let res ← ComMat.scalarMul mat scalar
  assert (vecEq (vecEq Com.eq) exp res)

/-- `test_B1_transpose_vec`, `test_B2_transpose_vec`, src/data_structures.rs:2108-2127, 2177-2196. -/
def test_B_transpose_vec (F : Type) [Field F] [Module F G] (g : Prog ρ G) : Prog ρ Unit := do
  let gen ← g
  let mat : Matrix (Com G) := [[⟨0, gen⟩, emb F gen 2, emb F gen 3]]
  let exp : Matrix (Com G) := [[⟨0, gen⟩], [emb F gen 2], [emb F gen 3]]
  let res ← ComMat.transpose mat
  assertDims res 3 1
  assert (vecEq (vecEq Com.eq) exp res)

/-- `test_B1_matrix_transpose`, `test_B2_matrix_transpose`, src/data_structures.rs:2130-2174, 2199-2243. -/
def test_B_matrix_transpose (F : Type) [Field F] [Module F G] (g : Prog ρ G) : Prog ρ Unit := do
  let gen ← g
  let mat : Matrix (Com G) := [[⟨0, gen⟩, emb F gen 2, emb F gen 3], [emb F gen 4, emb F gen 5, emb F gen 6],
    [emb F gen 7, emb F gen 8, emb F gen 9]]
  let exp : Matrix (Com G) := [[⟨0, gen⟩, emb F gen 4, emb F gen 7], [emb F gen 2, emb F gen 5, emb F gen 8],
    [emb F gen 3, emb F gen 6, emb F gen 9]]
  let res ← ComMat.transpose mat
  assertDims res 3 3
  assert (vecEq (vecEq Com.eq) exp res)

/-- `Com1::<F>(G1Affine::zero(), -affine_group_new!(g1gen, "n"))`, src/data_structures.rs:2374. -/
def embNeg (F : Type) [Field F] [Module F G] (gen : G) (n : Nat) : Com G := ⟨0, -((n : F) • gen)⟩

/-- `test_B1_matrix_neg`, `test_B2_matrix_neg`, src/data_structures.rs:2349-2440. -/
def test_B_matrix_neg (F : Type) [Field F] [Module F G] (g : Prog ρ G) : Prog ρ Unit := do
  let gen ← g
  let mat : Matrix (Com G) := [[⟨0, gen⟩, emb F gen 2, emb F gen 3], [emb F gen 4, emb F gen 5, emb F gen 6],
    [emb F gen 7, emb F gen 8, emb F gen 9]]
  let exp : Matrix (Com G) := [[⟨0, -gen⟩, embNeg F gen 2, embNeg F gen 3], [embNeg F gen 4, embNeg F gen 5, embNeg F gen 6],
    [embNeg F gen 7, embNeg F gen 8, embNeg F gen 9]]
  let res ← ComMat.neg mat
  assertDims res 3 3
  assert (vecEq (vecEq Com.eq) exp res)

/-- `test_B1_matrix_add`, `test_B2_matrix_add`, src/data_structures.rs:2503-2632. -/
def test_B_matrix_add (F : Type) [Field F] [Module F G] (g : Prog ρ G) : Prog ρ Unit := do
  let gen ← g
  let lhs : Matrix (Com G) := [[⟨0, gen⟩, emb F gen 2, emb F gen 3], [emb F gen 4, emb F gen 5, emb F gen 6],
    [emb F gen 7, emb F gen 8, emb F gen 9]]
  let rhs : Matrix (Com G) := [[emb F gen 10, emb F gen 11, emb F gen 12], [emb F gen 13, emb F gen 14, emb F gen 15],
    [emb F gen 16, emb F gen 17, emb F gen 18]]
  let exp : Matrix (Com G) := [[emb F gen 11, emb F gen 13, emb F gen 15], [emb F gen 17, emb F gen 19, emb F gen 21],
    [emb F gen 23, emb F gen 25, emb F gen 27]]
  let lr ← ComMat.add lhs rhs
  let rl ← ComMat.add rhs lhs
  assertDims lr 3 3
  assert (vecEq (vecEq Com.eq) exp lr)
  assert (vecEq (vecEq Com.eq) lr rl)

end OneGroup

/-! ## src/data_structures.rs, `mod matrix`, over the field -/
section FieldTests
variable (F : Type) [Field F] [DecidableEq F]

/-- `test_col_vec_to_vec`, src/data_structures.rs:1646-1659. -/
def test_col_vec_to_vec : Res Unit := do
  let mat : Matrix F := [[1], [2], [3]]
  let vec ← colVecToVec mat
  let exp : List F := [1, 2, 3]
  assert (vecEq (· == ·) vec exp)

/-- `test_vec_to_col_vec`, src/data_structures.rs:1662-1675. -/
def test_vec_to_col_vec : Res Unit := do
  let vec : List F := [1, 2, 3]
  let mat := vecToColVec vec
  let exp : Matrix F := [[1], [2], [3]]
  assert (matEq mat exp)

/-- `test_field_matrix_left_mul_entry`, src/data_structures.rs:1678-1699. -/
def test_field_matrix_left_mul_entry (sch : Nat → Scheduler) : Res Unit := do
  let lhs : Matrix F := [[1, 2, 3]]
  let rhs : Matrix F := [[4], [5], [6]]
  let exp : Matrix F := [[32]]
  let res ← FieldMat.leftMul (sch 0) rhs lhs false
  assertDims res 1 1
  assert (matEq exp res)

/-- `test_field_matrix_right_mul_entry`, src/data_structures.rs:1702-1723. -/
def test_field_matrix_right_mul_entry (sch : Nat → Scheduler) : Res Unit := do
  let lhs : Matrix F := [[1, 2, 3]]
  let rhs : Matrix F := [[4], [5], [6]]
  let exp : Matrix F := [[32]]
  let res ← FieldMat.rightMul (sch 0) lhs rhs false
  assertDims res 1 1
  assert (matEq exp res)

/-- `test_field_matrix_left_mul` and `test_field_matrix_left_mul_par`, src/data_structures.rs:1726-1778, 1838-1892. -/
def test_field_matrix_left_mul (sch : Nat → Scheduler) (is_parallel : Bool) : Res Unit := do
  let lhs : Matrix F := [[1, 2, 3], [4, 5, 6]]
  let rhs : Matrix F := [[7, 8, 9, 10], [11, 12, 13, 14], [15, 16, 17, 18]]
  let exp : Matrix F := [[74, 80, 86, 92], [173, 188, 203, 218]]
  let res ← FieldMat.leftMul (sch 0) rhs lhs is_parallel
  assertDims res 2 4
  assert (matEq exp res)

/-- `test_field_matrix_right_mul` and `test_field_matrix_right_mul_par`, src/data_structures.rs:1781-1835, 1895-1947. -/
def test_field_matrix_right_mul (sch : Nat → Scheduler) (is_parallel : Bool) : Res Unit := do
  let lhs : Matrix F := [[1, 2, 3], [4, 5, 6]]
  let rhs : Matrix F := [[7, 8, 9, 10], [11, 12, 13, 14], [15, 16, 17, 18]]
  let exp : Matrix F := [[74, 80, 86, 92], [173, 188, 203, 218]]
  let res ← FieldMat.rightMul (sch 0) lhs rhs is_parallel
  assertDims res 2 4
  assert (matEq exp res)

/-- `test_field_matrix_scalar_mul`, src/data_structures.rs:2009-2047. -/
def test_field_matrix_scalar_mul : Res Unit := do
  let scalar : F := 3
  let mat : Matrix F := [[1, 2, 3], [4, 5, 6], [7, 8, 9]]
  let exp : Matrix F := [[3, 6, 9], [12, 15, 18], [21, 24, 27]]
  let res ← FieldMat.scalarMul mat scalar
  assert (matEq exp res)

/-- `test_field_transpose_vec`, src/data_structures.rs:2246-2266. -/
def test_field_transpose_vec : Res Unit := do
  let mat : Matrix F := [[1, 2, 3]]
  let exp : Matrix F := [[1], [2], [3]]
  let res ← FieldMat.transpose mat
  assertDims res 3 1
  assert (matEq exp res)

/-- `test_field_matrix_transpose`, src/data_structures.rs:2269-2304. -/
def test_field_matrix_transpose : Res Unit := do
  let mat : Matrix F := [[1, 2, 3], [4, 5, 6], [7, 8, 9]]
  let exp : Matrix F := [[1, 4, 7], [2, 5, 8], [3, 6, 9]]
  let res ← FieldMat.transpose mat
  assertDims res 3 3
  assert (matEq exp res)

/-- `test_field_matrix_neg`, src/data_structures.rs:2307-2346. -/
def test_field_matrix_neg : Res Unit := do
  let mat : Matrix F := [[1, 2, 3], [4, 5, 6], [7, 8, 9]]
  let exp : Matrix F := [[-1, -2, -3], [-4, -5, -6], [-7, -8, -9]]
  let res ← FieldMat.neg mat
  assertDims res 3 3
  assert (matEq exp res)

/-- `test_field_matrix_add`, src/data_structures.rs:2442-2500. -/
def test_field_matrix_add : Res Unit := do
  let lhs : Matrix F := [[1, 2, 3], [4, 5, 6], [7, 8, 9]]
  let rhs : Matrix F := [[10, 11, 12], [13, 14, 15], [16, 17, 18]]
  let exp : Matrix F := [[11, 13, 15], [17, 19, 21], [23, 25, 27]]
  let lr ← FieldMat.add lhs rhs
  let rl ← FieldMat.add rhs lhs
  assertDims lr 3 3
  assert (matEq exp lr)
  assert (matEq lr rl)

end FieldTests

/-! ## src/data_structures.rs, `mod SXDH_com_group`: the target group -/
section Target
variable {ρ GT : Type} [AddCommGroup GT] [DecidableEq GT]

/-- Four elements from the generator, src/data_structures.rs:978-983. `gt` is `GT::rand`. -/
def randComT (gt : Prog ρ GT) : Prog ρ (ComT GT) := do
  let t0 ← gt
  let t1 ← gt
  let t2 ← gt
  let t3 ← gt
  pure ⟨t0, t1, t2, t3⟩

/-- `test_BT_add_zero`, src/data_structures.rs:976-990. -/
def test_BT_add_zero (gt : Prog ρ GT) : Prog ρ Unit := do
  let a ← randComT gt
  let zero : ComT GT := ⟨0, 0, 0, 0⟩
  let asub := a + zero
  assert (zero.eq ComT.zero)
  assert zero.isZero
  assert (a.eq asub)

/-- `test_BT_add`, src/data_structures.rs:1032-1051. -/
def test_BT_add (gt : Prog ρ GT) : Prog ρ Unit := do
  let a ← randComT gt
  let b ← randComT gt
  let ab := a + b
  let ba := b + a
  assert (ab.eq ⟨a.t0 + b.t0, a.t1 + b.t1, a.t2 + b.t2, a.t3 + b.t3⟩)
  assert (ab.eq ba)

/-- `test_BT_sum`, src/data_structures.rs:1101-1126. -/
def test_BT_sum (gt : Prog ρ GT) : Prog ρ Unit := do
  let a ← randComT gt
  let b ← randComT gt
  let c ← randComT gt
  let abc_vec := [a, b, c]
  let abc := rustSum abc_vec
  assert (abc.eq (a + b + c))

/-- `test_BT_neg`, src/data_structures.rs:1158-1170. -/
def test_BT_neg (gt : Prog ρ GT) : Prog ρ Unit := do
  let b ← randComT gt
  let bneg := -b
  let zero := b + bneg
  assert zero.isZero

/-- `test_BT_sub`, src/data_structures.rs:1212-1231. -/
def test_BT_sub (gt : Prog ρ GT) : Prog ρ Unit := do
  let a ← randComT gt
  let b ← randComT gt
  let ab := a - b
  let ba := b - a
  assert (ab.eq ⟨a.t0 - b.t0, a.t1 - b.t1, a.t2 - b.t2, a.t3 - b.t3⟩)
  assert (ab.eq (-ba))

end Target

/-! ## Tests with pairings, keys, equations and proofs -/
section Main
variable {ρ F G1 G2 GT : Type} [Field F] [AddCommGroup G1] [Module F G1] [AddCommGroup G2] [Module F G2]
  [AddCommGroup GT] [Module F GT] [DecidableEq F] [DecidableEq G1] [DecidableEq G2] [DecidableEq GT]
  [Rng ρ F G1 G2]

/-- `Fr::rand(&mut rng)`, e.g. src/data_structures.rs:1241. -/
def fr (F G1 G2 : Type) [Rng ρ F G1 G2] : Prog ρ F := fun s => .ok (Rng.randF G1 G2 s)
/-- `G1Projective::rand(&mut rng).into_affine()`, e.g. src/data_structures.rs:947. -/
def g1 (F G1 G2 : Type) [Rng ρ F G1 G2] : Prog ρ G1 := fun s => .ok (Rng.randG1 F G2 s)
/-- `G2Projective::rand(&mut rng).into_affine()`, e.g. src/data_structures.rs:963. -/
def g2 (F G1 G2 : Type) [Rng ρ F G1 G2] : Prog ρ G2 := fun s => .ok (Rng.randG2 F G1 s)
/-- `GT::rand(&mut rng)`, e.g. src/data_structures.rs:979. -/
def gt (randT : ρ → GT × ρ) : Prog ρ GT := fun s => .ok (randT s)
/-- `CRS::<F>::generate_crs(&mut rng)`, e.g. src/data_structures.rs:1489. -/
def crsOf (e : G1 →ₗ[F] G2 →ₗ[F] GT) : Prog ρ (CRS G1 G2 GT) := fun s => .ok (generateCrs e s)

variable (ρ)
variable (e : G1 →ₗ[F] G2 →ₗ[F] GT) (randT : ρ → GT × ρ) (sch : Nat → Scheduler)
local notation "rFr" => fr (ρ := ρ) F G1 G2
local notation "rG1" => g1 (ρ := ρ) F G1 G2
local notation "rG2" => g2 (ρ := ρ) F G1 G2
local notation "rGT" => gt randT
local notation "rCrs" => crsOf (ρ := ρ) e

/-- `test_B_pairing_zero_G1`, src/data_structures.rs:1313-1326. -/
def test_B_pairing_zero_G1 : Prog ρ Unit := do
  let b1 : Com G1 := ⟨0, 0⟩
  let b2 ← randCom rG2
  let bt := ComT.pairing e b1 b2
  assert (bt.t0 == 0)
  assert (bt.t1 == 0)
  assert (bt.t2 == 0)
  assert (bt.t3 == 0)

/-- `test_B_pairing_zero_G2`, src/data_structures.rs:1330-1343. -/
def test_B_pairing_zero_G2 : Prog ρ Unit := do
  let b1 ← randCom rG1
  let b2 : Com G2 := ⟨0, 0⟩
  let bt := ComT.pairing e b1 b2
  assert (bt.t0 == 0)
  assert (bt.t1 == 0)
  assert (bt.t2 == 0)
  assert (bt.t3 == 0)

/-- `test_B_pairing_commit`, src/data_structures.rs:1347-1357. -/
def test_B_pairing_commit : Prog ρ Unit := do
  let b1 : Com G1 := ⟨0, ← rG1⟩
  let b2 : Com G2 := ⟨0, ← rG2⟩
  let bt := ComT.pairing e b1 b2
  assert (bt.t0 == 0)
  assert (bt.t1 == 0)
  assert (bt.t2 == 0)
  assert (bt.t3 == e b1.c1 b2.c1)

/-- `test_B_pairing_rand`, src/data_structures.rs:1361-1377. -/
def test_B_pairing_rand : Prog ρ Unit := do
  let b1 ← randCom rG1
  let b2 ← randCom rG2
  let bt := ComT.pairing e b1 b2
  assert (bt.t0 == e b1.c0 b2.c0)
  assert (bt.t1 == e b1.c0 b2.c1)
  assert (bt.t2 == e b1.c1 b2.c0)
  assert (bt.t3 == e b1.c1 b2.c1)

/-- `test_B_pairing_sum`, src/data_structures.rs:1381-1407. -/
def test_B_pairing_sum : Prog ρ Unit := do
  let x1 ← randCom rG1
  let x2 ← randCom rG1
  let y1 ← randCom rG2
  let y2 ← randCom rG2
  let x := [x1, x2]
  let y := [y1, y2]
  let exp := rustSum [ComT.pairing e x1 y1, ComT.pairing e x2 y2]
  let res ← ComT.pairingSum e x y
  assert (exp.eq res)

/-- `test_B_into_matrix`, src/data_structures.rs:1410-1427. -/
def test_B_into_matrix : Prog ρ Unit := do
  let b1 ← randCom rG1
  let b2 ← randCom rG2
  let bt := ComT.pairing e b1 b2
  assert (matEq b1.asColVec [[b1.c0], [b1.c1]])
  assert (matEq b2.asColVec [[b2.c0], [b2.c1]])
  assert (matEq bt.asMatrix [[bt.t0, bt.t1], [bt.t2, bt.t3]])

/-- `test_B_from_matrix`, src/data_structures.rs:1430-1464. -/
def test_B_from_matrix : Prog ρ Unit := do
  let b1_vec : Matrix G1 := [[← rG1], [← rG1]]
  let b2_vec : Matrix G2 := [[← rG2], [← rG2]]
  let bt_vec : Matrix GT := [
    [e (← idx2 b1_vec 0 0) (← idx2 b2_vec 0 0), e (← idx2 b1_vec 0 0) (← idx2 b2_vec 1 0)],
    [e (← idx2 b1_vec 1 0) (← idx2 b2_vec 0 0), e (← idx2 b1_vec 1 0) (← idx2 b2_vec 1 0)]]
  let b1 ← Com.fromMatrix b1_vec
  let b2 ← Com.fromMatrix b2_vec
  let bt ← ComT.fromMatrix bt_vec
  assert (b1.c0 == (← idx2 b1_vec 0 0))
  assert (b1.c1 == (← idx2 b1_vec 1 0))
  assert (b2.c0 == (← idx2 b2_vec 0 0))
  assert (b2.c1 == (← idx2 b2_vec 1 0))
  assert (bt.t0 == (← idx2 bt_vec 0 0))
  assert (bt.t1 == (← idx2 bt_vec 0 1))
  assert (bt.t2 == (← idx2 bt_vec 1 0))
  assert (bt.t3 == (← idx2 bt_vec 1 1))

/-- `test_batched_linear_maps`, src/data_structures.rs:1467-1484. -/
def test_batched_linear_maps : Prog ρ Unit := do
  let vec_g1 : List G1 := [← rG1, ← rG1]
  let vec_g2 : List G2 := [← rG2, ← rG2]
  let vec_b1 := Com1.batchLinearMap vec_g1
  let vec_b2 := Com2.batchLinearMap vec_g2
  assert ((← idx vec_b1 0).eq (Com1.linearMap (← idx vec_g1 0)))
  assert ((← idx vec_b1 1).eq (Com1.linearMap (← idx vec_g1 1)))
  assert ((← idx vec_b2 0).eq (Com2.linearMap (← idx vec_g2 0)))
  assert ((← idx vec_b2 1).eq (Com2.linearMap (← idx vec_g2 1)))

/-- `test_batched_scalar_linear_maps`, src/data_structures.rs:1487-1511. -/
def test_batched_scalar_linear_maps : Prog ρ Unit := do
  let key ← rCrs
  let vec_scalar : List F := [← rFr, ← rFr]
  let vec_b1 ← Com1.batchScalarLinearMap vec_scalar key
  let vec_b2 ← Com2.batchScalarLinearMap vec_scalar key
  assert ((← idx vec_b1 0).eq (← Com1.scalarLinearMap (← idx vec_scalar 0) key))
  assert ((← idx vec_b1 1).eq (← Com1.scalarLinearMap (← idx vec_scalar 1) key))
  assert ((← idx vec_b2 0).eq (← Com2.scalarLinearMap (← idx vec_scalar 0) key))
  assert ((← idx vec_b2 1).eq (← Com2.scalarLinearMap (← idx vec_scalar 1) key))

/-- `test_PPE_linear_maps`, src/data_structures.rs:1514-1531. -/
def test_PPE_linear_maps : Prog ρ Unit := do
  let a1 ← rG1
  let a2 ← rG2
  let at' := e a1 a2
  let b1 := Com1.linearMap a1
  let b2 := Com2.linearMap a2
  let bt := ComT.linearMapPPE at'
  assert (b1.c0 == 0)
  assert (b1.c1 == a1)
  assert (b2.c0 == 0)
  assert (b2.c1 == a2)
  assert (bt.t0 == 0)
  assert (bt.t1 == 0)
  assert (bt.t2 == 0)
  assert (bt.t3 == e a1 a2)

/-- `test_MSMEG1_linear_maps`, src/data_structures.rs:1535-1554. -/
def test_MSMEG1_linear_maps : Prog ρ Unit := do
  let key ← rCrs
  let a1 ← rG1
  let a2 ← rFr
  let at' := a2 • a1
  let b1 := Com1.linearMap a1
  let b2 ← Com2.scalarLinearMap a2 key
  let bt ← ComT.linearMapMSMEG1 e at' key
  assert (b1.c0 == 0)
  assert (b1.c1 == a1)
  assert (b2.c0 == a2 • (← idx key.v 1).c0)
  assert (b2.c1 == a2 • ((← idx key.v 1).c1 + key.g2_gen))
  assert (bt.t0 == 0)
  assert (bt.t1 == 0)
  assert (bt.t2 == e at' (← idx key.v 1).c0)
  assert (bt.t3 == e at' ((← idx key.v 1).c1 + key.g2_gen))

/-- `test_MSMEG2_linear_maps`, src/data_structures.rs:1558-1577. -/
def test_MSMEG2_linear_maps : Prog ρ Unit := do
  let key ← rCrs
  let a1 ← rFr
  let a2 ← rG2
  let at' := a1 • a2
  let b1 ← Com1.scalarLinearMap a1 key
  let b2 := Com2.linearMap a2
  let bt ← ComT.linearMapMSMEG2 e at' key
  assert (b1.c0 == a1 • (← idx key.u 1).c0)
  assert (b1.c1 == a1 • ((← idx key.u 1).c1 + key.g1_gen))
  assert (b2.c0 == 0)
  assert (b2.c1 == a2)
  assert (bt.t0 == 0)
  assert (bt.t1 == e (← idx key.u 1).c0 at')
  assert (bt.t2 == 0)
  assert (bt.t3 == e ((← idx key.u 1).c1 + key.g1_gen) at')

/-- `test_QuadEqu_linear_maps`, src/data_structures.rs:1581-1603. -/
def test_QuadEqu_linear_maps : Prog ρ Unit := do
  let key ← rCrs
  let a1 ← rFr
  let a2 ← rFr
  let at' := a1 * a2
  let b1 ← Com1.scalarLinearMap a1 key
  let b2 ← Com2.scalarLinearMap a2 key
  let bt ← ComT.linearMapQuad e at' key
  let W1 : Com G1 := ⟨(← idx key.u 1).c0, (← idx key.u 1).c1 + key.g1_gen⟩
  let W2 : Com G2 := ⟨(← idx key.v 1).c0, (← idx key.v 1).c1 + key.g2_gen⟩
  assert (b1.c0 == a1 • W1.c0)
  assert (b1.c1 == a1 • W1.c1)
  assert (b2.c0 == a2 • W2.c0)
  assert (b2.c1 == a2 • W2.c1)
  assert (bt.eq (ComT.pairing e (W1.scalarMul a1) (W2.scalarMul a2)))
  assert (bt.eq (ComT.pairing e W1 (W2.scalarMul at')))

/-! ## tests/commit.rs -/

/-- `PPE_linear_bilinear_map_commutativity`, tests/commit.rs:22-34. -/
def PPE_linear_bilinear_map_commutativity : Prog ρ Unit := do
  let a1 ← rG1
  let a2 ← rG2
  let at' := e a1 a2
  let b1 := Com1.linearMap a1
  let b2 := Com2.linearMap a2
  let bt_lin_bilin := ComT.pairing e b1 b2
  let bt_bilin_lin := ComT.linearMapPPE at'
  assert (bt_lin_bilin.eq bt_bilin_lin)

/-- `MSMEG1_linear_bilinear_map_commutativity`, tests/commit.rs:37-51. -/
def MSMEG1_linear_bilinear_map_commutativity : Prog ρ Unit := do
  let key ← rCrs
  let a1 ← rG1
  let a2 ← rFr
  let at' := a2 • a1
  let b1 := Com1.linearMap a1
  let b2 ← Com2.scalarLinearMap a2 key
  let bt_lin_bilin := ComT.pairing e b1 b2
  let bt_bilin_lin ← ComT.linearMapMSMEG1 e at' key
  assert (bt_lin_bilin.eq bt_bilin_lin)

/-- `MSMEG2_linear_bilinear_map_commutativity`, tests/commit.rs:54-68. -/
def MSMEG2_linear_bilinear_map_commutativity : Prog ρ Unit := do
  let key ← rCrs
  let a1 ← rFr
  let a2 ← rG2
  let at' := a1 • a2
  let b1 ← Com1.scalarLinearMap a1 key
  let b2 := Com2.linearMap a2
  let bt_lin_bilin := ComT.pairing e b1 b2
  let bt_bilin_lin ← ComT.linearMapMSMEG2 e at' key
  assert (bt_lin_bilin.eq bt_bilin_lin)

/-- `QuadEqu_linear_bilinear_map_commutativity`, tests/commit.rs:71-85. -/
def QuadEqu_linear_bilinear_map_commutativity : Prog ρ Unit := do
  let key ← rCrs
  let a1 ← rFr
  let a2 ← rFr
  let at' := a1 * a2
  let b1 ← Com1.scalarLinearMap a1 key
  let b2 ← Com2.scalarLinearMap a2 key
  let bt_lin_bilin := ComT.pairing e b1 b2
  let bt_bilin_lin ← ComT.linearMapQuad e at' key
  assert (bt_lin_bilin.eq bt_bilin_lin)

/-! ## src/generator.rs -/

/-- `test_valid_generators`, src/generator.rs:138-149. -/
def test_valid_generators : Prog ρ Unit := do
  let crs ← rCrs
  assert (crs.gt_gen == e crs.g1_gen crs.g2_gen)
  assert (crs.g1_gen != 0)
  assert (crs.g2_gen != 0)
  assert (crs.gt_gen != 0)

/-- `test_valid_binding_CRS`, src/generator.rs:153-182. -/
def test_valid_binding_CRS : Prog (ρ × ρ) Unit := do
  let crs ← on1 rCrs
  let p1 ← on2 rG1
  let p2 ← on2 rG2
  let a1 ← on2 rFr
  let a2 ← on2 rFr
  let t1 ← on2 rFr
  let t2 ← on2 rFr
  let q1 := a1 • p1
  let q2 := a2 • p2
  let (v1, v2) := prepareRealBindingKey p1 p2 q1 t1 q2 t2
  assert (!(← idx crs.u 0).eq Com.zero)
  assert (!(← idx crs.u 1).eq Com.zero)
  assert (!(← idx crs.v 0).eq Com.zero)
  assert (!(← idx crs.v 1).eq Com.zero)
  assert (crs.g1_gen != 0)
  assert (crs.g2_gen != 0)
  assert ((← idx crs.u 1).c1 == v1)
  assert ((← idx crs.v 1).c1 == v2)

/-- The comparison of two CRSs field by field, src/generator.rs:193-197. -/
def crsEq (a b : CRS G1 G2 GT) : Bool :=
  vecEq Com.eq a.u b.u && vecEq Com.eq a.v b.v && a.g1_gen == b.g1_gen && a.g2_gen == b.g2_gen && a.gt_gen == b.gt_gen

/-- `test_CRS_serde`, src/generator.rs:186-207. -/
def test_CRS_serde (c1 : Codec G1) (c2 : Codec G2) (cT : Codec GT) : Prog ρ Unit := do
  let crs ← rCrs
  serde (CRS.codec c1 c2 cT) crsEq crs

/-! ## src/statement.rs -/

/-- `test_equtypes_serde`, src/statement.rs:211-233. -/
def test_equtypes_serde : Res Unit := do
  let _ ← collect (fun equ_type : EquType => do
    assert (EquType.codec.size .Yes equ_type == 1)
    assert (EquType.codec.size .No equ_type == 1)
    let c_bytes := EquType.codec.ser .Yes equ_type
    assert (c_bytes.length == 1)
    let equ_type_de ← unwrap (EquType.codec.de .Yes .Yes c_bytes)
    assert (equ_type.eq equ_type_de.1)
    let u_bytes := EquType.codec.ser .No equ_type
    assert (u_bytes.length == 1)
    let equ_type_de ← unwrap (EquType.codec.de .No .Yes u_bytes)
    assert (equ_type.eq equ_type_de.1))
    [EquType.PairingProduct, .MultiScalarG1, .MultiScalarG2, .Quadratic]

/-- The equation of `test_PPE_equation_type` and `test_PPE_equation_serde`, src/statement.rs:237-245, 252-260. -/
def ppe11 : Prog ρ (PPE F G1 G2 GT) := do
  let crs ← rCrs
  let a ← rFr
  let b ← rFr
  let g ← rFr
  let t ← rGT
  pure ⟨[a • crs.g1_gen], [b • crs.g2_gen], [[g]], t⟩

/-- `test_PPE_equation_type`, src/statement.rs:236-248. -/
def test_PPE_equation_type : Prog ρ Unit := do
  let equ ← ppe11 ρ e randT
  assert (equ.getType.eq .PairingProduct)

/-- `test_PPE_equation_serde`, src/statement.rs:251-273. -/
def test_PPE_equation_serde (cF : Codec F) (c1 : Codec G1) (c2 : Codec G2) (cT : Codec GT) : Prog ρ Unit := do
  let equ ← ppe11 ρ e randT
  serde (PPE.codec cF c1 c2 cT) PPE.eq equ

/-- The equation of `test_MSMEG1_equation_type` and `test_MSMEG1_equation_serde`, src/statement.rs:277-285, 292-300. -/
def msmeg1_11 : Prog ρ (MSMEG1 F G1) := do
  let crs ← rCrs
  let a ← rFr
  let b ← rFr
  let g ← rFr
  let t ← rFr
  pure ⟨[a • crs.g1_gen], [b], [[g]], t • crs.g1_gen⟩

/-- `test_MSMEG1_equation_type`, src/statement.rs:276-288. -/
def test_MSMEG1_equation_type : Prog ρ Unit := do
  let equ ← msmeg1_11 ρ e
  assert (equ.getType.eq .MultiScalarG1)

/-- `test_MSMEG1_equation_serde`, src/statement.rs:291-313. -/
def test_MSMEG1_equation_serde (cF : Codec F) (c1 : Codec G1) : Prog ρ Unit := do
  let equ ← msmeg1_11 ρ e
  serde (MSMEG1.codec cF c1) MSMEG1.eq equ

/-- The equation of `test_MSMEG2_equation_type` and `test_MSMEG2_equation_serde`, src/statement.rs:317-325, 332-340. -/
def msmeg2_11 : Prog ρ (MSMEG2 F G2) := do
  let crs ← rCrs
  let a ← rFr
  let b ← rFr
  let g ← rFr
  let t ← rFr
  pure ⟨[a], [b • crs.g2_gen], [[g]], t • crs.g2_gen⟩

/-- `test_MSMEG2_equation_type`, src/statement.rs:316-328. -/
def test_MSMEG2_equation_type : Prog ρ Unit := do
  let equ ← msmeg2_11 ρ e
  assert (equ.getType.eq .MultiScalarG2)

/-- `test_MSMEG2_equation_serde`, src/statement.rs:331-353. -/
def test_MSMEG2_equation_serde (cF : Codec F) (c2 : Codec G2) : Prog ρ Unit := do
  let equ ← msmeg2_11 ρ e
  serde (MSMEG2.codec cF c2) MSMEG2.eq equ

/-- The equation of `test_quadratic_equation_type` and `test_quadratic_equation_serde`, src/statement.rs:357-364,
371-378. -/
def quad11 (F G1 G2 : Type) [Rng ρ F G1 G2] : Prog ρ (QuadEqu F) := do
  let a ← fr F G1 G2
  let b ← fr F G1 G2
  let g ← fr F G1 G2
  let t ← fr F G1 G2
  pure ⟨[a], [b], [[g]], t⟩

/-- `test_quadratic_equation_type`, src/statement.rs:356-367. -/
def test_quadratic_equation_type (F G1 G2 : Type) [Rng ρ F G1 G2] : Prog ρ Unit := do
  let equ ← quad11 ρ F G1 G2
  assert (equ.getType.eq .Quadratic)

/-- `test_quadratic_equation_serde`, src/statement.rs:370-391. -/
def test_quadratic_equation_serde (G1 G2 : Type) [Rng ρ F G1 G2] (cF : Codec F) : Prog ρ Unit := do
  let equ ← quad11 ρ F G1 G2
  serde (QuadEqu.codec cF) QuadEqu.eq equ

/-! ## src/prover/commit.rs -/

/-- `test_commit_serde`, src/prover/commit.rs:294-335. -/
def test_commit_serde (cF : Codec F) (c1 : Codec G1) (c2 : Codec G2) : Prog ρ Unit := do
  let crs ← rCrs
  let r1 ← rFr
  let r2 ← rFr
  let com1 : Commit F G1 := ⟨[⟨r1 • crs.g1_gen, r2 • crs.g1_gen⟩], [[r1, r2]]⟩
  let com2 : Commit F G2 := ⟨[⟨r1 • crs.g2_gen, r2 • crs.g2_gen⟩], [[r1, r2]]⟩
  serde (Commit.codec cF c1) Commit.eq com1
  serde (Commit.codec cF c2) Commit.eq com2

/-- `test_commit_append_com1`, src/prover/commit.rs:338-386. -/
def test_commit_append_com1 : Prog ρ Unit := do
  let crs ← rCrs
  let r11 ← rFr
  let r12 ← rFr
  let r21 ← rFr
  let r22 ← rFr
  let com1 : Commit F G1 := ⟨[⟨r11 • crs.g1_gen, r12 • crs.g1_gen⟩], [[r11, r12]]⟩
  let com2 : Commit F G1 := ⟨[⟨r21 • crs.g1_gen, r22 • crs.g1_gen⟩], [[r21, r22]]⟩
  let com1_exp : Commit F G1 :=
    ⟨[⟨r11 • crs.g1_gen, r12 • crs.g1_gen⟩, ⟨r21 • crs.g1_gen, r22 • crs.g1_gen⟩], [[r11, r12], [r21, r22]]⟩
  let com2_exp : Commit F G1 := ⟨[], []⟩
  let (com1, com2) ← com1.append com2
  assert (com1.eq com1_exp)
  assert (com2.eq com2_exp)

/-- `test_commit_append_com2`, src/prover/commit.rs:389-437. -/
def test_commit_append_com2 : Prog ρ Unit := do
  let crs ← rCrs
  let r11 ← rFr
  let r12 ← rFr
  let r21 ← rFr
  let r22 ← rFr
  let com1 : Commit F G2 := ⟨[⟨r11 • crs.g2_gen, r12 • crs.g2_gen⟩], [[r11, r12]]⟩
  let com2 : Commit F G2 := ⟨[⟨r21 • crs.g2_gen, r22 • crs.g2_gen⟩], [[r21, r22]]⟩
  let com1_exp : Commit F G2 :=
    ⟨[⟨r11 • crs.g2_gen, r12 • crs.g2_gen⟩, ⟨r21 • crs.g2_gen, r22 • crs.g2_gen⟩], [[r11, r12], [r21, r22]]⟩
  let com2_exp : Commit F G2 := ⟨[], []⟩
  let (com1, com2) ← com1.append com2
  assert (com1.eq com1_exp)
  assert (com2.eq com2_exp)

/-- `test_commit_G1_batching`, src/prover/commit.rs:440-464. -/
def test_commit_G1_batching : Prog (ρ × ρ) Unit := do
  let crs ← on1 rCrs
  let rngsync1 ← on1 rFr
  let xvars : List G1 := [crs.g1_gen, (2 : F) • crs.g1_gen, (3 : F) • crs.g1_gen]
  let exp ← on1 (commitG1 (F := F) (← idx xvars 0) crs)
  let (exp, _) ← exp.append (← on1 (commitG1 (← idx xvars 1) crs))
  let (exp, _) ← exp.append (← on1 (commitG1 (← idx xvars 2) crs))
  let _ ← on2 rCrs
  let rngsync2 ← on2 rFr
  assert (rngsync1 == rngsync2)
  let res ← on2 (batchCommitG1 xvars crs)
  assert (exp.eq res)

/-- `test_commit_G2_batching`, src/prover/commit.rs:467-492. -/
def test_commit_G2_batching : Prog (ρ × ρ) Unit := do
  let crs ← on1 rCrs
  let rngsync1 ← on1 rFr
  let yvars : List G2 := [crs.g2_gen, (2 : F) • crs.g2_gen, (3 : F) • crs.g2_gen]
  let exp ← on1 (commitG2 (F := F) (← idx yvars 0) crs)
  let (exp, _) ← exp.append (← on1 (commitG2 (← idx yvars 1) crs))
  let (exp, _) ← exp.append (← on1 (commitG2 (← idx yvars 2) crs))
  let _ ← on2 rCrs
  let rngsync2 ← on2 rFr
  assert (rngsync1 == rngsync2)
  let res ← on2 (batchCommitG2 yvars crs)
  assert (exp.eq res)

/-- `test_commit_scalar_B1_batching`, src/prover/commit.rs:495-520. -/
def test_commit_scalar_B1_batching : Prog (ρ × ρ) Unit := do
  let crs ← on1 rCrs
  let rngsync1 ← on1 rFr
  let scalar_xvars : List F := [1, 2, 3]
  let exp ← on1 (commitScalarToB1 (← idx scalar_xvars 0) crs)
  let (exp, _) ← exp.append (← on1 (commitScalarToB1 (← idx scalar_xvars 1) crs))
  let (exp, _) ← exp.append (← on1 (commitScalarToB1 (← idx scalar_xvars 2) crs))
  let _ ← on2 rCrs
  let rngsync2 ← on2 rFr
  assert (rngsync1 == rngsync2)
  let res ← on2 (batchCommitScalarToB1 scalar_xvars crs)
  assert (exp.eq res)

/-- `test_commit_scalar_B2_batching`, src/prover/commit.rs:523-548. -/
def test_commit_scalar_B2_batching : Prog (ρ × ρ) Unit := do
  let crs ← on1 rCrs
  let rngsync1 ← on1 rFr
  let scalar_yvars : List F := [1, 2, 3]
  let exp ← on1 (commitScalarToB2 (← idx scalar_yvars 0) crs)
  let (exp, _) ← exp.append (← on1 (commitScalarToB2 (← idx scalar_yvars 1) crs))
  let (exp, _) ← exp.append (← on1 (commitScalarToB2 (← idx scalar_yvars 2) crs))
  let _ ← on2 rCrs
  let rngsync2 ← on2 rFr
  assert (rngsync1 == rngsync2)
  let res ← on2 (batchCommitScalarToB2 scalar_yvars crs)
  assert (exp.eq res)

/-! ## src/prover/prove.rs -/

/-- `for _ in 0..n { let _ = Fr::rand(&mut rng2); }`, e.g. src/prover/prove.rs:571-573. -/
def skip (F G1 G2 : Type) [Rng ρ F G1 G2] : Nat → Prog ρ Unit
  | 0 => pure ()
  | n + 1 => do
    let _ ← fr F G1 G2
    skip F G1 G2 n

/-- The variables of the tests about `PPE`, src/prover/prove.rs:515-519. -/
def ppeVars (crs : CRS G1 G2 GT) : Prog ρ (List G1 × List G2) := do
  let x0 ← rFr
  let x1 ← rFr
  let y0 ← rFr
  pure ([x0 • crs.g1_gen, x1 • crs.g1_gen], [y0 • crs.g2_gen])

/-- The equation of the tests about `PPE`, src/prover/prove.rs:523-531. -/
def ppeEqu (crs : CRS G1 G2 GT) : Prog ρ (PPE F G1 G2 GT) := do
  let a ← rFr
  let b0 ← rFr
  let b1 ← rFr
  let t ← rGT
  pure ⟨[a • crs.g1_gen], [b0 • crs.g2_gen, b1 • crs.g2_gen], [[1], [0]], t⟩

/-- The common beginning of `test_PPE_proof_type` and `test_PPE_cproof_serde`, src/prover/prove.rs:512-532, 593-613. -/
def ppeProof : Prog ρ (EquProof F G1 G2) := do
  let crs ← rCrs
  let (xvars, yvars) ← ppeVars (F := F) ρ crs
  let xcoms ← (batchCommitG1 xvars crs : Prog ρ (Commit F G1))
  let ycoms ← (batchCommitG2 yvars crs : Prog ρ (Commit F G2))
  let equ ← ppeEqu (F := F) ρ randT crs
  (equ.prove sch xvars yvars xcoms ycoms crs : Prog ρ (EquProof F G1 G2))

/-- `test_PPE_proof_type`, src/prover/prove.rs:511-535. -/
def test_PPE_proof_type : Prog ρ Unit := do
  let proof ← ppeProof ρ e randT sch
  assert (proof.equ_type.eq .PairingProduct)

/-- `test_PPE_cproof_is_commit_and_prove`, src/prover/prove.rs:538-589. -/
def test_PPE_cproof_is_commit_and_prove (sch' : Nat → Scheduler) : Prog (ρ × ρ) Unit := do
  let crs ← on1 rCrs
  let (xvars, yvars) ← on1 (ppeVars (F := F) ρ crs)
  let equ ← on1 (ppeEqu (F := F) ρ randT crs)
  let xcoms ← on1 (batchCommitG1 (F := F) xvars crs)
  let ycoms ← on1 (batchCommitG2 (F := F) yvars crs)
  let proof ← on1 (equ.prove sch xvars yvars xcoms ycoms crs : Prog ρ (EquProof F G1 G2))
  let cproof : CProof F G1 G2 := ⟨xcoms, ycoms, [proof]⟩
  let _ ← on2 rCrs
  on2 (skip ρ F G1 G2 xvars.length)
  on2 (skip ρ F G1 G2 yvars.length)
  on2 (skip ρ F G1 G2 equ.a_consts.length)
  on2 (skip ρ F G1 G2 equ.b_consts.length)
  let _ ← on2 rGT
  let cproof2 ← on2 (equ.commitAndProve sch' xvars yvars crs : Prog ρ (CProof F G1 G2))
  assert (cproof.eq cproof2)

/-- `test_PPE_cproof_serde`, src/prover/prove.rs:592-625. -/
def test_PPE_cproof_serde (cF : Codec F) (c1 : Codec G1) (c2 : Codec G2) : Prog ρ Unit := do
  let proof ← ppeProof ρ e randT sch
  serde (EquProof.codec cF c1 c2) EquProof.eq proof

/-- The variables of the tests about `MSMEG1`, src/prover/prove.rs:632-636. -/
def msmeg1Vars (crs : CRS G1 G2 GT) : Prog ρ (List G1 × List F) := do
  let x0 ← rFr
  let x1 ← rFr
  let y0 ← rFr
  pure ([x0 • crs.g1_gen, x1 • crs.g1_gen], [y0])

/-- The equation of the tests about `MSMEG1`, src/prover/prove.rs:640-645. -/
def msmeg1Equ (crs : CRS G1 G2 GT) : Prog ρ (MSMEG1 F G1) := do
  let a ← rFr
  let b0 ← rFr
  let b1 ← rFr
  let t ← rFr
  pure ⟨[a • crs.g1_gen], [b0, b1], [[1], [0]], t • crs.g1_gen⟩

/-- The common beginning of `test_MSMEG1_proof_type` and `test_MSGMEG1_cproof_serde`, src/prover/prove.rs:629-647,
706-724. -/
def msmeg1Proof : Prog ρ (EquProof F G1 G2) := do
  let crs ← rCrs
  let (xvars, scalar_yvars) ← msmeg1Vars (F := F) ρ crs
  let xcoms ← (batchCommitG1 xvars crs : Prog ρ (Commit F G1))
  let scalar_ycoms ← (batchCommitScalarToB2 scalar_yvars crs : Prog ρ (Commit F G2))
  let equ ← msmeg1Equ (F := F) ρ crs
  (equ.prove sch xvars scalar_yvars xcoms scalar_ycoms crs : Prog ρ (EquProof F G1 G2))

/-- `test_MSMEG1_proof_type`, src/prover/prove.rs:628-650. -/
def test_MSMEG1_proof_type : Prog ρ Unit := do
  let proof ← msmeg1Proof ρ e sch
  assert (proof.equ_type.eq .MultiScalarG1)

/-- `test_MSMEG1_cproof_is_commit_and_prove`, src/prover/prove.rs:653-702. -/
def test_MSMEG1_cproof_is_commit_and_prove (sch' : Nat → Scheduler) : Prog (ρ × ρ) Unit := do
  let crs ← on1 rCrs
  let (xvars, scalar_yvars) ← on1 (msmeg1Vars (F := F) ρ crs)
  let equ ← on1 (msmeg1Equ (F := F) ρ crs)
  let xcoms ← on1 (batchCommitG1 (F := F) xvars crs)
  let scalar_ycoms ← on1 (batchCommitScalarToB2 scalar_yvars crs)
  let proof ← on1 (equ.prove sch xvars scalar_yvars xcoms scalar_ycoms crs : Prog ρ (EquProof F G1 G2))
  let cproof : CProof F G1 G2 := ⟨xcoms, scalar_ycoms, [proof]⟩
  let _ ← on2 rCrs
  on2 (skip ρ F G1 G2 xvars.length)
  on2 (skip ρ F G1 G2 scalar_yvars.length)
  on2 (skip ρ F G1 G2 equ.a_consts.length)
  on2 (skip ρ F G1 G2 equ.b_consts.length)
  let _ ← on2 rFr
  let cproof2 ← on2 (equ.commitAndProve sch' xvars scalar_yvars crs : Prog ρ (CProof F G1 G2))
  assert (cproof.eq cproof2)

/-- `test_MSGMEG1_cproof_serde`, src/prover/prove.rs:705-736. -/
def test_MSGMEG1_cproof_serde (cF : Codec F) (c1 : Codec G1) (c2 : Codec G2) : Prog ρ Unit := do
  let proof ← msmeg1Proof ρ e sch
  serde (EquProof.codec cF c1 c2) EquProof.eq proof

/-- The variables of the tests about `MSMEG2`, src/prover/prove.rs:743-744. -/
def msmeg2Vars (crs : CRS G1 G2 GT) : Prog ρ (List F × List G2) := do
  let x0 ← rFr
  let x1 ← rFr
  let y0 ← rFr
  pure ([x0, x1], [y0 • crs.g2_gen])

/-- The equation of the tests about `MSMEG2`, src/prover/prove.rs:748-756. -/
def msmeg2Equ (crs : CRS G1 G2 GT) : Prog ρ (MSMEG2 F G2) := do
  let a ← rFr
  let b0 ← rFr
  let b1 ← rFr
  let t ← rFr
  pure ⟨[a], [b0 • crs.g2_gen, b1 • crs.g2_gen], [[1], [0]], t • crs.g2_gen⟩

/-- The common beginning of `test_MSMEG2_proof_type` and `test_MSMEG2_proof_serde`, src/prover/prove.rs:740-758,
817-835. -/
def msmeg2Proof : Prog ρ (EquProof F G1 G2) := do
  let crs ← rCrs
  let (scalar_xvars, yvars) ← msmeg2Vars (F := F) ρ crs
  let scalar_xcoms ← (batchCommitScalarToB1 scalar_xvars crs : Prog ρ (Commit F G1))
  let ycoms ← (batchCommitG2 yvars crs : Prog ρ (Commit F G2))
  let equ ← msmeg2Equ (F := F) ρ crs
  (equ.prove sch scalar_xvars yvars scalar_xcoms ycoms crs : Prog ρ (EquProof F G1 G2))

/-- `test_MSMEG2_proof_type`, src/prover/prove.rs:739-761. -/
def test_MSMEG2_proof_type : Prog ρ Unit := do
  let proof ← msmeg2Proof ρ e sch
  assert (proof.equ_type.eq .MultiScalarG2)

/-- `test_MSMEG2_cproof_is_commit_and_prove`, src/prover/prove.rs:764-813. -/
def test_MSMEG2_cproof_is_commit_and_prove (sch' : Nat → Scheduler) : Prog (ρ × ρ) Unit := do
  let crs ← on1 rCrs
  let (scalar_xvars, yvars) ← on1 (msmeg2Vars (F := F) ρ crs)
  let equ ← on1 (msmeg2Equ (F := F) ρ crs)
  let scalar_xcoms ← on1 (batchCommitScalarToB1 scalar_xvars crs)
  let ycoms ← on1 (batchCommitG2 (F := F) yvars crs)
  let proof ← on1 (equ.prove sch scalar_xvars yvars scalar_xcoms ycoms crs : Prog ρ (EquProof F G1 G2))
  let cproof : CProof F G1 G2 := ⟨scalar_xcoms, ycoms, [proof]⟩
  let _ ← on2 rCrs
  on2 (skip ρ F G1 G2 scalar_xvars.length)
  on2 (skip ρ F G1 G2 yvars.length)
  on2 (skip ρ F G1 G2 equ.a_consts.length)
  on2 (skip ρ F G1 G2 equ.b_consts.length)
  let _ ← on2 rFr
  let cproof2 ← on2 (equ.commitAndProve sch' scalar_xvars yvars crs : Prog ρ (CProof F G1 G2))
  assert (cproof.eq cproof2)

/-- `test_MSMEG2_proof_serde`, src/prover/prove.rs:816-847. -/
def test_MSMEG2_proof_serde (cF : Codec F) (c1 : Codec G1) (c2 : Codec G2) : Prog ρ Unit := do
  let proof ← msmeg2Proof ρ e sch
  serde (EquProof.codec cF c1 c2) EquProof.eq proof

/-- The variables of the tests about `QuadEqu`, src/prover/prove.rs:854-855. -/
def quadVars (F G1 G2 : Type) [Rng ρ F G1 G2] : Prog ρ (List F × List F) := do
  let x0 ← fr F G1 G2
  let x1 ← fr F G1 G2
  let y0 ← fr F G1 G2
  pure ([x0, x1], [y0])

/-- The equation of the tests about `QuadEqu`, src/prover/prove.rs:857-862. -/
def quadEqu (F G1 G2 : Type) [Field F] [Rng ρ F G1 G2] : Prog ρ (QuadEqu F) := do
  let a ← fr F G1 G2
  let b0 ← fr F G1 G2
  let b1 ← fr F G1 G2
  let t ← fr F G1 G2
  pure ⟨[a], [b0, b1], [[1], [0]], t⟩

/-- The common beginning of `test_quadratic_proof_type` and `test_quadratic_proof_serde`, src/prover/prove.rs:851-874,
936-959. -/
def quadProof : Prog ρ (EquProof F G1 G2) := do
  let crs ← rCrs
  let (scalar_xvars, scalar_yvars) ← quadVars ρ F G1 G2
  let equ ← quadEqu ρ F G1 G2
  let scalar_xcoms ← (batchCommitScalarToB1 scalar_xvars crs : Prog ρ (Commit F G1))
  let scalar_ycoms ← (batchCommitScalarToB2 scalar_yvars crs : Prog ρ (Commit F G2))
  (equ.prove sch scalar_xvars scalar_yvars scalar_xcoms scalar_ycoms crs : Prog ρ (EquProof F G1 G2))

/-- `test_quadratic_proof_type`, src/prover/prove.rs:850-877. -/
def test_quadratic_proof_type : Prog ρ Unit := do
  let proof ← quadProof ρ e sch
  assert (proof.equ_type.eq .Quadratic)

/-- `test_quadratic_cproof_is_commit_and_prove`, src/prover/prove.rs:880-932. -/
def test_quadratic_cproof_is_commit_and_prove (sch' : Nat → Scheduler) : Prog (ρ × ρ) Unit := do
  let crs ← on1 rCrs
  let (scalar_xvars, scalar_yvars) ← on1 (quadVars ρ F G1 G2)
  let equ ← on1 (quadEqu ρ F G1 G2)
  let scalar_xcoms ← on1 (batchCommitScalarToB1 scalar_xvars crs)
  let scalar_ycoms ← on1 (batchCommitScalarToB2 scalar_yvars crs)
  let proof ← on1 (equ.prove sch scalar_xvars scalar_yvars scalar_xcoms scalar_ycoms crs : Prog ρ (EquProof F G1 G2))
  let cproof : CProof F G1 G2 := ⟨scalar_xcoms, scalar_ycoms, [proof]⟩
  let _ ← on2 rCrs
  on2 (skip ρ F G1 G2 scalar_xvars.length)
  on2 (skip ρ F G1 G2 scalar_yvars.length)
  on2 (skip ρ F G1 G2 equ.a_consts.length)
  on2 (skip ρ F G1 G2 equ.b_consts.length)
  let _ ← on2 rFr
  let cproof2 ← on2 (equ.commitAndProve sch' scalar_xvars scalar_yvars crs : Prog ρ (CProof F G1 G2))
  assert (cproof.eq cproof2)

/-- `test_quadratic_proof_serde`, src/prover/prove.rs:935-972. -/
def test_quadratic_proof_serde (cF : Codec F) (c1 : Codec G1) (c2 : Codec G2) : Prog ρ Unit := do
  let proof ← quadProof ρ e sch
  serde (EquProof.codec cF c1 c2) EquProof.eq proof

/-! ## tests/prover.rs -/

/-- `pairing_product_equation_verifies`, tests/prover.rs:25-62. -/
def pairing_product_equation_verifies (sch' : Scheduler) : Prog ρ Unit := do
  let crs ← rCrs
  let xvars : List G1 := [(2 : F) • crs.g1_gen, (3 : F) • crs.g1_gen]
  let yvars : List G2 := [(4 : F) • crs.g2_gen]
  let a_consts : List G1 := [(← rFr) • crs.g1_gen]
  let b_consts : List G2 := [0, (← rFr) • crs.g2_gen]
  let gamma : Matrix F := [[5], [0]]
  let target : GT := e (← idx xvars 1) (← idx b_consts 1) + e (← idx a_consts 0) (← idx yvars 0) +
    e (← idx xvars 0) ((← idx2 gamma 0 0) • (← idx yvars 0))
  let equ : PPE F G1 G2 GT := ⟨a_consts, b_consts, gamma, target⟩
  let proof ← (equ.commitAndProve sch xvars yvars crs : Prog ρ (CProof F G1 G2))
  assert (← equ.verify e sch' proof crs)

/-- `multi_scalar_mult_equation_G1_verifies`, tests/prover.rs:65-100. -/
def multi_scalar_mult_equation_G1_verifies (sch' : Scheduler) : Prog ρ Unit := do
  let crs ← rCrs
  let xvars : List G1 := [(2 : F) • crs.g1_gen, (3 : F) • crs.g1_gen]
  let scalar_yvars : List F := [4]
  let a_consts : List G1 := [(← rFr) • crs.g1_gen]
  let b_consts : List F := [0, ← rFr]
  let gamma : Matrix F := [[5], [0]]
  let target : G1 := (← idx b_consts 1) • (← idx xvars 1) + (← idx scalar_yvars 0) • (← idx a_consts 0) +
    ((← idx scalar_yvars 0) * (← idx2 gamma 0 0)) • (← idx xvars 0)
  let equ : MSMEG1 F G1 := ⟨a_consts, b_consts, gamma, target⟩
  let proof ← (equ.commitAndProve sch xvars scalar_yvars crs : Prog ρ (CProof F G1 G2))
  assert (← equ.verify e sch' proof crs)

/-- `multi_scalar_mult_equation_G2_verifies`, tests/prover.rs:103-138. -/
def multi_scalar_mult_equation_G2_verifies (sch' : Scheduler) : Prog ρ Unit := do
  let crs ← rCrs
  let scalar_xvars : List F := [2, 3]
  let yvars : List G2 := [(4 : F) • crs.g2_gen]
  let a_consts : List F := [← rFr]
  let b_consts : List G2 := [0, (← rFr) • crs.g2_gen]
  let gamma : Matrix F := [[5], [0]]
  let target : G2 := (← idx scalar_xvars 1) • (← idx b_consts 1) + (← idx a_consts 0) • (← idx yvars 0) +
    ((← idx scalar_xvars 0) * (← idx2 gamma 0 0)) • (← idx yvars 0)
  let equ : MSMEG2 F G2 := ⟨a_consts, b_consts, gamma, target⟩
  let proof ← (equ.commitAndProve sch scalar_xvars yvars crs : Prog ρ (CProof F G1 G2))
  assert (← equ.verify e sch' proof crs)

/-- `quadratic_equation_verifies`, tests/prover.rs:141-172. -/
def quadratic_equation_verifies (sch' : Scheduler) : Prog ρ Unit := do
  let crs ← rCrs
  let scalar_xvars : List F := [2, 3]
  let scalar_yvars : List F := [4]
  let a_consts : List F := [← rFr]
  let b_consts : List F := [0, ← rFr]
  let gamma : Matrix F := [[5], [0]]
  let target : F := (← idx b_consts 1) * (← idx scalar_xvars 1) + (← idx scalar_yvars 0) * (← idx a_consts 0) +
    (← idx scalar_yvars 0) * (← idx scalar_xvars 0) * (← idx2 gamma 0 0)
  let equ : QuadEqu F := ⟨a_consts, b_consts, gamma, target⟩
  let proof ← (equ.commitAndProve sch scalar_xvars scalar_yvars crs : Prog ρ (CProof F G1 G2))
  assert (← equ.verify e sch' proof crs)

end Main
end GS.Tests
