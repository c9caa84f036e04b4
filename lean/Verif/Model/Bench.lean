import Verif.Model.Tests

/-!
# The benchmarks of the repository

The functions of benches/bench.rs as programs.  A benchmark prepares its input and then repeats the call it measures.

Simplifications.  As in `Verif/Model/Tests.lean`; criterion decides how often the call is repeated, so the number is a
parameter `k`; the results of the calls are dropped, as in the code; benchmarks that call only arkworks (`G1_arith`
without `bench_B1_add` and `bench_B1_scalar_mul`) are not modelled.  The sizes `m`, `n` of the large benchmarks, 334 in
the code, are parameters.  `Vec::with_capacity` is not modelled.
-/

namespace GS.Bench
open GS GS.Tests

variable (ρ : Type) {F G1 G2 GT : Type} [Field F] [AddCommGroup G1] [Module F G1] [AddCommGroup G2] [Module F G2]
  [AddCommGroup GT] [Module F GT] [DecidableEq GT] [Rng ρ F G1 G2] (e : G1 →ₗ[F] G2 →ₗ[F] GT)

/-- `bench.iter(|| { let _ = ..; })`, e.g. benches/bench.rs:60-62. -/
def iter {ρ α : Type} (p : Prog ρ α) : Nat → Prog ρ Unit
  | 0 => pure ()
  | k + 1 => do
    let _ ← p
    iter p k

/-- `for _ in 0..m { v.push(..) }`, e.g. benches/bench.rs:92-94. -/
def pushes {ρ α : Type} (p : Prog ρ α) : Nat → Prog ρ (List α)
  | 0 => pure []
  | m + 1 => do
    let a ← p
    let l ← pushes p m
    pure (a :: l)

/-- `bench_small_field_matrix_mul` and `bench_small_field_matrix_mul_par`, benches/bench.rs:48-82. -/
def bench_small_field_matrix_mul (F G1 G2 : Type) [Field F] [Rng ρ F G1 G2] (sch : Nat → Scheduler) (par : Bool) (k : Nat) :
    Prog ρ Unit := do
  let l00 ← fr F G1 G2
  let l01 ← fr F G1 G2
  let l10 ← fr F G1 G2
  let l11 ← fr F G1 G2
  let r0 ← fr F G1 G2
  let r1 ← fr F G1 G2
  iter (liftM (FieldMat.rightMul (sch 0) [[l00, l01], [l10, l11]] [[r0], [r1]] par)) k

/-- `bench_large_field_matrix_mul` and `bench_large_field_matrix_mul_par`, benches/bench.rs:84-143. -/
def bench_large_field_matrix_mul (F G1 G2 : Type) [Field F] [Rng ρ F G1 G2] (m n : Nat) (sch : Nat → Scheduler) (par : Bool)
    (k : Nat) : Prog ρ Unit := do
  let lhs ← pushes (do let a ← fr F G1 G2; let b ← fr F G1 G2; pure [a, b]) m
  let rhs ← pushes (pushes (fr F G1 G2) n) 2
  iter (liftM (FieldMat.rightMul (sch 0) lhs rhs par)) k

/-- `affine_group_rand!`, benches/bench.rs:42-46. -/
def groupRand (F G1 G2 : Type) {G : Type} [SMul F G] [Rng ρ F G1 G2] (gen : G) : Prog ρ G := do
  let a ← fr F G1 G2
  pure (a • gen)

/-- `bench_small_B1_matrix_mul` and `bench_small_B1_matrix_mul_par`, benches/bench.rs:145-195. -/
def bench_small_B1_matrix_mul (F G1 G2 : Type) [Field F] [AddCommGroup G1] [Module F G1] [Rng ρ F G1 G2]
    (sch : Nat → Scheduler) (par : Bool) (k : Nat) : Prog ρ Unit := do
  let g1gen ← g1 F G1 G2
  let r00 ← groupRand ρ F G1 G2 g1gen
  let r01 ← groupRand ρ F G1 G2 g1gen
  let r10 ← groupRand ρ F G1 G2 g1gen
  let r11 ← groupRand ρ F G1 G2 g1gen
  let l00 ← fr F G1 G2
  let l01 ← fr F G1 G2
  let l10 ← fr F G1 G2
  let l11 ← fr F G1 G2
  iter (liftM (ComMat.leftMul (sch 0) ([[⟨r00, r01⟩], [⟨r10, r11⟩]] : Matrix (Com G1)) [[l00, l01], [l10, l11]] par)) k

/-- `bench_B1_scalar_mul`, benches/bench.rs:197-210. -/
def bench_B1_scalar_mul (F G1 G2 : Type) [Field F] [AddCommGroup G1] [Module F G1] [Rng ρ F G1 G2] (k : Nat) : Prog ρ Unit := do
  let g11 ← g1 F G1 G2
  let g12 ← g1 F G1 G2
  let b1 : Com G1 := ⟨g11, g12⟩
  let fr ← fr F G1 G2
  iter (pure (b1.scalarMul fr)) k

/-- `bench_B1_add`, benches/bench.rs:212-227. -/
def bench_B1_add (F G1 G2 : Type) [AddCommGroup G1] [Rng ρ F G1 G2] (k : Nat) : Prog ρ Unit := do
  let g11 ← g1 F G1 G2
  let g12 ← g1 F G1 G2
  let b11 : Com G1 := ⟨g11, g12⟩
  let g21 ← g1 F G1 G2
  let g22 ← g1 F G1 G2
  let b12 : Com G1 := ⟨g21, g22⟩
  iter (pure (b11 + b12)) k

/-- `bench_small_batch_commit_G1`, benches/bench.rs:292-304. -/
def bench_small_batch_commit_G1 (k : Nat) : Prog ρ Unit := do
  let crs ← crsOf e
  let xvars : List G1 := [crs.g1_gen, (2 : F) • crs.g1_gen]
  iter (batchCommitG1 (F := F) xvars crs) k

/-- `bench_large_batch_commit_G1`, benches/bench.rs:306-322. -/
def bench_large_batch_commit_G1 (m k : Nat) : Prog ρ Unit := do
  let crs ← crsOf e
  let xvars ← pushes (groupRand ρ F G1 G2 crs.g1_gen) m
  iter (batchCommitG1 (F := F) xvars crs) k

/-- `bench_small_batch_commit_G2`, benches/bench.rs:324-336. -/
def bench_small_batch_commit_G2 (k : Nat) : Prog ρ Unit := do
  let crs ← crsOf e
  let yvars : List G2 := [crs.g2_gen, (2 : F) • crs.g2_gen]
  iter (batchCommitG2 (F := F) yvars crs) k

/-- `bench_large_batch_commit_G2`, benches/bench.rs:338-354. -/
def bench_large_batch_commit_G2 (n k : Nat) : Prog ρ Unit := do
  let crs ← crsOf e
  let yvars ← pushes (groupRand ρ F G1 G2 crs.g2_gen) n
  iter (batchCommitG2 (F := F) yvars crs) k

/-- `bench_small_batch_commit_scalar_to_B1`, benches/bench.rs:356-368. -/
def bench_small_batch_commit_scalar_to_B1 (k : Nat) : Prog ρ Unit := do
  let crs ← crsOf e
  let x0 ← fr F G1 G2
  let x1 ← fr F G1 G2
  iter (batchCommitScalarToB1 [x0, x1] crs) k

/-- `bench_large_batch_commit_scalar_to_B1`, benches/bench.rs:370-386. -/
def bench_large_batch_commit_scalar_to_B1 (m k : Nat) : Prog ρ Unit := do
  let crs ← crsOf e
  let scalar_xvars ← pushes (fr F G1 G2) m
  iter (batchCommitScalarToB1 scalar_xvars crs) k

/-- `bench_small_batch_commit_scalar_to_B2`, benches/bench.rs:388-400. -/
def bench_small_batch_commit_scalar_to_B2 (k : Nat) : Prog ρ Unit := do
  let crs ← crsOf e
  let y0 ← fr F G1 G2
  let y1 ← fr F G1 G2
  iter (batchCommitScalarToB2 [y0, y1] crs) k

/-- `bench_large_batch_commit_scalar_to_B2`, benches/bench.rs:402-418. -/
def bench_large_batch_commit_scalar_to_B2 (n k : Nat) : Prog ρ Unit := do
  let crs ← crsOf e
  let scalar_yvars ← pushes (fr F G1 G2) n
  iter (batchCommitScalarToB2 scalar_yvars crs) k

variable (randT : ρ → GT × ρ) (sch : Nat → Scheduler)

/-- `bench_small_PPE_proof`, benches/bench.rs:420-449. -/
def bench_small_PPE_proof (k : Nat) : Prog ρ Unit := do
  let crs ← crsOf e
  let (xvars, yvars) ← ppeVars (F := F) ρ crs
  let xcoms ← (batchCommitG1 xvars crs : Prog ρ (Commit F G1))
  let ycoms ← (batchCommitG2 yvars crs : Prog ρ (Commit F G2))
  let equ ← ppeEqu (F := F) ρ randT crs
  iter (equ.prove sch xvars yvars xcoms ycoms crs : Prog ρ (EquProof F G1 G2)) k

/-- The vectors of the large benchmarks about `PPE`: `m` variables and constants in `G1`, benches/bench.rs:457-462,
536-541. -/
def leftVecs (crs : CRS G1 G2 GT) (m : Nat) : Prog ρ (List (G1 × G1)) :=
  pushes (do let x ← groupRand ρ F G1 G2 crs.g1_gen; let a ← groupRand ρ F G1 G2 crs.g1_gen; pure (x, a)) m

/-- `n` variables and constants in `G2`, benches/bench.rs:464-469, 543-548. -/
def rightVecs (crs : CRS G1 G2 GT) (n : Nat) : Prog ρ (List (G2 × G2)) :=
  pushes (do let y ← groupRand ρ F G1 G2 crs.g2_gen; let b ← groupRand ρ F G1 G2 crs.g2_gen; pure (y, b)) n

/-- `bench_large_PPE_proof`, benches/bench.rs:451-499. -/
def bench_large_PPE_proof (m n k : Nat) : Prog ρ Unit := do
  let crs ← crsOf e
  let xa ← leftVecs (F := F) ρ crs m
  let yb ← rightVecs (F := F) ρ crs n
  let xvars := xa.map Prod.fst
  let yvars := yb.map Prod.fst
  let xcoms ← (batchCommitG1 xvars crs : Prog ρ (Commit F G1))
  let ycoms ← (batchCommitG2 yvars crs : Prog ρ (Commit F G2))
  let gamma ← pushes (pushes (fr F G1 G2) n) m
  let target ← gt randT
  let equ : PPE F G1 G2 GT := ⟨xa.map Prod.snd, yb.map Prod.snd, gamma, target⟩
  iter (equ.prove sch xvars yvars xcoms ycoms crs : Prog ρ (EquProof F G1 G2)) k

/-- `bench_small_PPE_verify`, benches/bench.rs:501-529. -/
def bench_small_PPE_verify (sch' : Scheduler) (k : Nat) : Prog ρ Unit := do
  let crs ← crsOf e
  let (xvars, yvars) ← ppeVars (F := F) ρ crs
  let equ ← ppeEqu (F := F) ρ randT crs
  let proof ← (equ.commitAndProve sch xvars yvars crs : Prog ρ (CProof F G1 G2))
  iter (liftM (equ.verify e sch' proof crs)) k

/-- `bench_large_PPE_verify`, benches/bench.rs:531-579. -/
def bench_large_PPE_verify (sch' : Scheduler) (m n k : Nat) : Prog ρ Unit := do
  let crs ← crsOf e
  let xa ← leftVecs (F := F) ρ crs m
  let yb ← rightVecs (F := F) ρ crs n
  let xvars := xa.map Prod.fst
  let yvars := yb.map Prod.fst
  let gamma ← pushes (pushes (fr F G1 G2) n) m
  let target ← gt randT
  let equ : PPE F G1 G2 GT := ⟨xa.map Prod.snd, yb.map Prod.snd, gamma, target⟩
  let proof ← (equ.commitAndProve sch xvars yvars crs : Prog ρ (CProof F G1 G2))
  iter (liftM (equ.verify e sch' proof crs)) k

end GS.Bench
