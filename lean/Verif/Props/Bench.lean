import Verif.Lemmas.Bench
import Verif.Props.Example

/-!
# C117: the benchmarks of the repository return

From every state of the generator, with every schedule and any number of repetitions `k`.
-/

set_option linter.unusedSectionVars false

namespace GS
open GS.Tests GS.Bench

variable {ρ F G1 G2 GT : Type} [Field F] [AddCommGroup G1] [Module F G1] [AddCommGroup G2] [Module F G2]
  [AddCommGroup GT] [Module F GT] [DecidableEq F] [DecidableEq G1] [DecidableEq G2] [DecidableEq GT] [Rng ρ F G1 G2]

/-- C117: the benchmarks of fixed size. -/
theorem C117_small (e : G1 →ₗ[F] G2 →ₗ[F] GT) (randT : ρ → GT × ρ) (sch : Nat → Scheduler) (sch' : Scheduler) (par : Bool)
    (k : Nat) (s : ρ) :
    Passes (bench_small_field_matrix_mul ρ F G1 G2 sch par k) s ∧
    Passes (bench_small_B1_matrix_mul ρ F G1 G2 sch par k) s ∧
    Passes (bench_B1_scalar_mul ρ F G1 G2 k) s ∧
    Passes (bench_B1_add ρ F G1 G2 k) s ∧
    Passes (bench_small_batch_commit_G1 ρ e k) s ∧
    Passes (bench_small_batch_commit_G2 ρ e k) s ∧
    Passes (bench_small_batch_commit_scalar_to_B1 ρ e k) s ∧
    Passes (bench_small_batch_commit_scalar_to_B2 ρ e k) s ∧
    Passes (bench_small_PPE_proof ρ e randT sch k) s ∧
    Passes (bench_small_PPE_verify ρ e randT sch sch' k) s :=
  ⟨ret_small_field s sch k par, ret_small_B1 s sch k par, ret_B1_scalar_mul s k, ret_B1_add s k, ret_small_G1 e s k,
  ret_small_G2 e s k, ret_small_B1_scalar e s k, ret_small_B2_scalar e s k, ret_small_proof e randT s sch k,
  ret_small_verify e randT s sch k sch'⟩

/-- C117: the benchmarks of products and commitments for any sizes. -/
theorem C117_large (e : G1 →ₗ[F] G2 →ₗ[F] GT) (sch : Nat → Scheduler) (par : Bool) (m n k : Nat) (s : ρ) :
    Passes (bench_large_field_matrix_mul ρ F G1 G2 m n sch par k) s ∧
    (Passes (bench_large_batch_commit_G1 ρ e m k) s ↔ k = 0 ∨ 1 ≤ m) ∧
    (Passes (bench_large_batch_commit_G2 ρ e n k) s ↔ k = 0 ∨ 1 ≤ n) ∧
    (Passes (bench_large_batch_commit_scalar_to_B1 ρ e m k) s ↔ k = 0 ∨ 1 ≤ m) ∧
    (Passes (bench_large_batch_commit_scalar_to_B2 ρ e n k) s ↔ k = 0 ∨ 1 ≤ n) :=
  ⟨ret_large_field s sch k m n par, ret_large_G1 e s k m, ret_large_G2 e s k n, ret_large_B1_scalar e s k m,
  ret_large_B2_scalar e s k n⟩

/-- C117: the large benchmarks of `PPE` return exactly if there are as many variables on the left as on the right, as with
the 334 of the code: they make as many constants in `G1` as variables in `G1`, where the equation takes as many as variables
in `G2`. -/
theorem C117_large_ppe (e : G1 →ₗ[F] G2 →ₗ[F] GT) (randT : ρ → GT × ρ) (sch : Nat → Scheduler) (sch' : Scheduler)
    (m n k : Nat) (s : ρ) :
    (Passes (bench_large_PPE_proof ρ e randT sch m n k) s ↔ 1 ≤ m ∧ 1 ≤ n ∧ (k = 0 ∨ m = n)) ∧
    (Passes (bench_large_PPE_verify ρ e randT sch sch' m n k) s ↔ 1 ≤ m ∧ m = n) :=
  ⟨ret_large_proof e randT s sch k m n, ret_large_verify e randT s sch k sch' m n⟩

section
open Ex
variable (sch : Nat → Scheduler) (sch' : Scheduler) (k s : Nat)
example := C117_small e7 (fun s : Nat => ((s : K), s + 1)) sch sch' true k s
example := C117_large e7 sch true 334 334 k s
example : Passes (bench_large_PPE_proof Nat e7 (fun s : Nat => ((s : K), s + 1)) sch 334 334 20) s ∧
    Passes (bench_large_PPE_verify Nat e7 (fun s : Nat => ((s : K), s + 1)) sch sch' 334 334 10) s :=
  ⟨(C117_large_ppe e7 _ sch sch' 334 334 20 s).1.mpr (by simp), (C117_large_ppe e7 _ sch sch' 334 334 10 s).2.mpr (by simp)⟩

/-- With one variable on the right instead of 334 the benchmark panics. -/
example : ¬ Passes (bench_large_PPE_proof Nat e7 (fun s : Nat => ((s : K), s + 1)) sch 334 1 20) s := fun h =>
  absurd ((C117_large_ppe e7 _ sch sch' 334 1 20 s).1.mp h) (by simp)
end

end GS
