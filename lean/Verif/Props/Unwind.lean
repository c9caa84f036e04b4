import Verif.Lemmas.Unwind
import Verif.Props.Example

/-!
# C69: what a panicking call leaves behind

A caller may catch a panic and go on using the generator and the commitments it passed by `&mut` reference.
`Verif/Model/Unwind.lean` has the library's functions as calls that leave a value behind the reference in either
case; `forget` (`Verif/Spec/Unwind.lean`) drops that value on a panic.  `draws G1 G2 k rng` (`Verif/Spec/Tape.lean`) are
the first `k` scalars drawn from `rng`, and the generator after that.  Nothing is assumed about keys, equations,
variables, commitments or the generator.
-/

namespace GS
set_option linter.unusedSectionVars false
variable {F G1 G2 GT : Type} [Field F] [AddCommGroup G1] [Module F G1] [AddCommGroup G2] [Module F G2]
variable {ρ : Type} [Rng ρ F G1 G2]

/-- C69, `append`: it agrees with the model of C19, and when it panics neither commitment has changed. -/
theorem C69_append {G : Type} (a b : Commit F G) :
    (Commit.appendU.forget (a, b)) = (do let r ← a.append b; pure ((), r)) ∧
    (∀ p, (Commit.appendU.run (a, b)).1 = .error p → (Commit.appendU.run (a, b)).2 = (a, b)) := by
  have key : Commit.appendU.run (a, b) =
      if a.coms.length = a.rand.length ∧ b.coms.length = b.rand.length then
        (.ok (), (⟨a.coms ++ b.coms, a.rand ++ b.rand⟩, ⟨[], []⟩)) else (.error .assertFailed, (a, b)) := by
    by_cases ha : a.coms.length = a.rand.length <;> by_cases hb : b.coms.length = b.rand.length
    all_goals
      unfold Commit.appendU
      simp [Unw.run_get_bind, Unw.run_set_bind, Unw.run_set, Unw.run_ok_bind, Unw.run_error_bind, assertEq, ha, hb]
  constructor
  · rw [Unw.forget, key, Commit.append]
    by_cases ha : a.coms.length = a.rand.length <;> by_cases hb : b.coms.length = b.rand.length <;>
      simp [assertEq, ha, hb]
  · intro p
    rw [key]
    split <;> simp

/-- C69, `commit_G1`: two draws have been made, whether it returns or panics. -/
theorem C69_commit_G1 (x : G1) (key : CRS G1 G2 GT) (rng : ρ) :
    (commitG1U (F := F) x key).forget rng = commitG1 x key rng ∧
    ((commitG1U (F := F) x key).run rng).2 = (draws (F := F) G1 G2 2 rng).2 :=
  ⟨commitG1_forget x key rng, commitG1_state x key rng⟩

/-- C69, `commit_G2`: two draws have been made, whether it returns or panics. -/
theorem C69_commit_G2 (x : G2) (key : CRS G1 G2 GT) (rng : ρ) :
    (commitG2U (F := F) x key).forget rng = commitG2 x key rng ∧
    ((commitG2U (F := F) x key).run rng).2 = (draws (F := F) G1 G2 2 rng).2 :=
  ⟨commitG2_forget x key rng, commitG2_state x key rng⟩

/-- C69, `commit_scalar_to_B1`: one draw has been made, whether it returns or panics. -/
theorem C69_commit_scalar_to_B1 (x : F) (key : CRS G1 G2 GT) (rng : ρ) :
    (commitScalarToB1U x key).forget rng = commitScalarToB1 x key rng ∧
    ((commitScalarToB1U x key).run rng).2 = (draws (F := F) G1 G2 1 rng).2 :=
  ⟨commitScalarToB1_forget x key rng, commitScalarToB1_state x key rng⟩

/-- C69, `commit_scalar_to_B2`: one draw has been made, whether it returns or panics. -/
theorem C69_commit_scalar_to_B2 (x : F) (key : CRS G1 G2 GT) (rng : ρ) :
    (commitScalarToB2U x key).forget rng = commitScalarToB2 x key rng ∧
    ((commitScalarToB2U x key).run rng).2 = (draws (F := F) G1 G2 1 rng).2 :=
  ⟨commitScalarToB2_forget x key rng, commitScalarToB2_state x key rng⟩

/-- C69, `batch_commit_G1`: two draws per value, whether it returns or panics. -/
theorem C69_batch_commit_G1 (x : List G1) (key : CRS G1 G2 GT) (rng : ρ) :
    (batchCommitG1U (F := F) x key).forget rng = batchCommitG1 x key rng ∧
    ((batchCommitG1U (F := F) x key).run rng).2 = (draws (F := F) G1 G2 (2 * x.length) rng).2 :=
  ⟨batchCommitG1_forget x key rng, batchCommitG1_state x key rng⟩

/-- C69, `batch_commit_G2`: two draws per value, whether it returns or panics. -/
theorem C69_batch_commit_G2 (x : List G2) (key : CRS G1 G2 GT) (rng : ρ) :
    (batchCommitG2U (F := F) x key).forget rng = batchCommitG2 x key rng ∧
    ((batchCommitG2U (F := F) x key).run rng).2 = (draws (F := F) G1 G2 (2 * x.length) rng).2 :=
  ⟨batchCommitG2_forget x key rng, batchCommitG2_state x key rng⟩

/-- C69, `batch_commit_scalar_to_B1`: one draw per value, whether it returns or panics. -/
theorem C69_batch_commit_scalar_to_B1 (x : List F) (key : CRS G1 G2 GT) (rng : ρ) :
    (batchCommitScalarToB1U x key).forget rng = batchCommitScalarToB1 x key rng ∧
    ((batchCommitScalarToB1U x key).run rng).2 = (draws (F := F) G1 G2 (x.length) rng).2 :=
  ⟨batchCommitScalarToB1_forget x key rng, batchCommitScalarToB1_state x key rng⟩

/-- C69, `batch_commit_scalar_to_B2`: one draw per value, whether it returns or panics. -/
theorem C69_batch_commit_scalar_to_B2 (x : List F) (key : CRS G1 G2 GT) (rng : ρ) :
    (batchCommitScalarToB2U x key).forget rng = batchCommitScalarToB2 x key rng ∧
    ((batchCommitScalarToB2U x key).run rng).2 = (draws (F := F) G1 G2 (x.length) rng).2 :=
  ⟨batchCommitScalarToB2_forget x key rng, batchCommitScalarToB2_state x key rng⟩

/-- C69, `PPE::prove`: if the recorded randomness does not fit the variables and `gamma` it panics with the generator
untouched; otherwise exactly the 4 draws of the proof have been made, even if it panics later. -/
theorem C69_ppe_prove (sch : Nat → Scheduler) (equ : PPE F G1 G2 GT) (x : List G1) (y : List G2)
    (xcoms : Commit F G1) (ycoms : Commit F G2) (crs : CRS G1 G2 GT) (rng : ρ) :
    (equ.proveU sch x y xcoms ycoms crs).forget rng = equ.prove sch x y xcoms ycoms crs rng ∧
    (ArgsFit 2 2 x.length y.length equ.gamma xcoms.rand ycoms.rand →
      ((equ.proveU sch x y xcoms ycoms crs).run rng).2 = (draws (F := F) G1 G2 4 rng).2) ∧
    (¬ ArgsFit 2 2 x.length y.length equ.gamma xcoms.rand ycoms.rand →
      (∃ p, ((equ.proveU sch x y xcoms ycoms crs).run rng).1 = .error p) ∧
      ((equ.proveU sch x y xcoms ycoms crs).run rng).2 = rng) :=
  ⟨PPE.prove_forget sch equ x y xcoms ycoms crs rng, PPE.prove_pre sch equ x y xcoms ycoms crs rng⟩

/-- C69, `PPE::commit_and_prove`: the generator is left after the draws of the first commitment if that cannot be made,
after those of both commitments if the second cannot be made or `gamma` does not fit, and after all draws otherwise. -/
theorem C69_ppe_commit_and_prove (sch : Nat → Scheduler) (equ : PPE F G1 G2 GT) (x : List G1) (y : List G2)
    (crs : CRS G1 G2 GT) (rng : ρ) :
    (equ.commitAndProveU sch x y crs).forget rng = equ.commitAndProve sch x y crs rng ∧
    (¬ (x ≠ [] ∧ crs.u.length = 2) →
      ((equ.commitAndProveU sch x y crs).run rng).2 = (draws (F := F) G1 G2 (2 * x.length) rng).2) ∧
    ((x ≠ [] ∧ crs.u.length = 2) →
      ¬ (y ≠ [] ∧ crs.v.length = 2 ∧ equ.gamma.length = x.length ∧ ∃ g, equ.gamma.head? = some g ∧ g.length = y.length) →
      ((equ.commitAndProveU sch x y crs).run rng).2 = (draws (F := F) G1 G2 (2 * x.length + 2 * y.length) rng).2) ∧
    ((x ≠ [] ∧ crs.u.length = 2) →
      (y ≠ [] ∧ crs.v.length = 2 ∧ equ.gamma.length = x.length ∧ ∃ g, equ.gamma.head? = some g ∧ g.length = y.length) →
      ((equ.commitAndProveU sch x y crs).run rng).2 =
        (draws (F := F) G1 G2 (2 * x.length + 2 * y.length + 4) rng).2) :=
  ⟨PPE.cap_forget sch equ x y crs rng, PPE.cap_state sch equ x y crs rng⟩

/-- C69, `MSMEG1::prove`: if the recorded randomness does not fit the variables and `gamma` it panics with the generator
untouched; otherwise exactly the 2 draws of the proof have been made, even if it panics later. -/
theorem C69_msmeg1_prove (sch : Nat → Scheduler) (equ : MSMEG1 F G1) (x : List G1) (y : List F)
    (xcoms : Commit F G1) (ycoms : Commit F G2) (crs : CRS G1 G2 GT) (rng : ρ) :
    (equ.proveU sch x y xcoms ycoms crs).forget rng = equ.prove sch x y xcoms ycoms crs rng ∧
    (ArgsFit 2 1 x.length y.length equ.gamma xcoms.rand ycoms.rand →
      ((equ.proveU sch x y xcoms ycoms crs).run rng).2 = (draws (F := F) G1 G2 2 rng).2) ∧
    (¬ ArgsFit 2 1 x.length y.length equ.gamma xcoms.rand ycoms.rand →
      (∃ p, ((equ.proveU sch x y xcoms ycoms crs).run rng).1 = .error p) ∧
      ((equ.proveU sch x y xcoms ycoms crs).run rng).2 = rng) :=
  ⟨MSMEG1.prove_forget sch equ x y xcoms ycoms crs rng, MSMEG1.prove_pre sch equ x y xcoms ycoms crs rng⟩

/-- C69, `MSMEG1::commit_and_prove`: the generator is left after the draws of the first commitment if that cannot be made,
after those of both commitments if the second cannot be made or `gamma` does not fit, and after all draws otherwise. -/
theorem C69_msmeg1_commit_and_prove (sch : Nat → Scheduler) (equ : MSMEG1 F G1) (x : List G1) (y : List F)
    (crs : CRS G1 G2 GT) (rng : ρ) :
    (equ.commitAndProveU sch x y crs).forget rng = equ.commitAndProve sch x y crs rng ∧
    (¬ (x ≠ [] ∧ crs.u.length = 2) →
      ((equ.commitAndProveU sch x y crs).run rng).2 = (draws (F := F) G1 G2 (2 * x.length) rng).2) ∧
    ((x ≠ [] ∧ crs.u.length = 2) →
      ¬ (y ≠ [] ∧ 2 ≤ crs.v.length ∧ equ.gamma.length = x.length ∧ ∃ g, equ.gamma.head? = some g ∧ g.length = y.length) →
      ((equ.commitAndProveU sch x y crs).run rng).2 = (draws (F := F) G1 G2 (2 * x.length + y.length) rng).2) ∧
    ((x ≠ [] ∧ crs.u.length = 2) →
      (y ≠ [] ∧ 2 ≤ crs.v.length ∧ equ.gamma.length = x.length ∧ ∃ g, equ.gamma.head? = some g ∧ g.length = y.length) →
      ((equ.commitAndProveU sch x y crs).run rng).2 =
        (draws (F := F) G1 G2 (2 * x.length + y.length + 2) rng).2) :=
  ⟨MSMEG1.cap_forget sch equ x y crs rng, MSMEG1.cap_state sch equ x y crs rng⟩

/-- C69, `MSMEG2::prove`: if the recorded randomness does not fit the variables and `gamma` it panics with the generator
untouched; otherwise exactly the 2 draws of the proof have been made, even if it panics later. -/
theorem C69_msmeg2_prove (sch : Nat → Scheduler) (equ : MSMEG2 F G2) (x : List F) (y : List G2)
    (xcoms : Commit F G1) (ycoms : Commit F G2) (crs : CRS G1 G2 GT) (rng : ρ) :
    (equ.proveU sch x y xcoms ycoms crs).forget rng = equ.prove sch x y xcoms ycoms crs rng ∧
    (ArgsFit 1 2 x.length y.length equ.gamma xcoms.rand ycoms.rand →
      ((equ.proveU sch x y xcoms ycoms crs).run rng).2 = (draws (F := F) G1 G2 2 rng).2) ∧
    (¬ ArgsFit 1 2 x.length y.length equ.gamma xcoms.rand ycoms.rand →
      (∃ p, ((equ.proveU sch x y xcoms ycoms crs).run rng).1 = .error p) ∧
      ((equ.proveU sch x y xcoms ycoms crs).run rng).2 = rng) :=
  ⟨MSMEG2.prove_forget sch equ x y xcoms ycoms crs rng, MSMEG2.prove_pre sch equ x y xcoms ycoms crs rng⟩

/-- C69, `MSMEG2::commit_and_prove`: the generator is left after the draws of the first commitment if that cannot be made,
after those of both commitments if the second cannot be made or `gamma` does not fit, and after all draws otherwise. -/
theorem C69_msmeg2_commit_and_prove (sch : Nat → Scheduler) (equ : MSMEG2 F G2) (x : List F) (y : List G2)
    (crs : CRS G1 G2 GT) (rng : ρ) :
    (equ.commitAndProveU sch x y crs).forget rng = equ.commitAndProve sch x y crs rng ∧
    (¬ (x ≠ [] ∧ 2 ≤ crs.u.length) →
      ((equ.commitAndProveU sch x y crs).run rng).2 = (draws (F := F) G1 G2 (x.length) rng).2) ∧
    ((x ≠ [] ∧ 2 ≤ crs.u.length) →
      ¬ (y ≠ [] ∧ crs.v.length = 2 ∧ equ.gamma.length = x.length ∧ ∃ g, equ.gamma.head? = some g ∧ g.length = y.length) →
      ((equ.commitAndProveU sch x y crs).run rng).2 = (draws (F := F) G1 G2 (x.length + 2 * y.length) rng).2) ∧
    ((x ≠ [] ∧ 2 ≤ crs.u.length) →
      (y ≠ [] ∧ crs.v.length = 2 ∧ equ.gamma.length = x.length ∧ ∃ g, equ.gamma.head? = some g ∧ g.length = y.length) →
      ((equ.commitAndProveU sch x y crs).run rng).2 =
        (draws (F := F) G1 G2 (x.length + 2 * y.length + 2) rng).2) :=
  ⟨MSMEG2.cap_forget sch equ x y crs rng, MSMEG2.cap_state sch equ x y crs rng⟩

/-- C69, `QuadEqu::prove`: if the recorded randomness does not fit the variables and `gamma` it panics with the generator
untouched; otherwise exactly the 1 draw of the proof has been made, even if it panics later. -/
theorem C69_quad_prove (sch : Nat → Scheduler) (equ : QuadEqu F) (x : List F) (y : List F)
    (xcoms : Commit F G1) (ycoms : Commit F G2) (crs : CRS G1 G2 GT) (rng : ρ) :
    (equ.proveU sch x y xcoms ycoms crs).forget rng = equ.prove sch x y xcoms ycoms crs rng ∧
    (ArgsFit 1 1 x.length y.length equ.gamma xcoms.rand ycoms.rand →
      ((equ.proveU sch x y xcoms ycoms crs).run rng).2 = (draws (F := F) G1 G2 1 rng).2) ∧
    (¬ ArgsFit 1 1 x.length y.length equ.gamma xcoms.rand ycoms.rand →
      (∃ p, ((equ.proveU sch x y xcoms ycoms crs).run rng).1 = .error p) ∧
      ((equ.proveU sch x y xcoms ycoms crs).run rng).2 = rng) :=
  ⟨QuadEqu.prove_forget sch equ x y xcoms ycoms crs rng, QuadEqu.prove_pre sch equ x y xcoms ycoms crs rng⟩

/-- C69, `QuadEqu::commit_and_prove`: the generator is left after the draws of the first commitment if that cannot be made,
after those of both commitments if the second cannot be made or `gamma` does not fit, and after all draws otherwise. -/
theorem C69_quad_commit_and_prove (sch : Nat → Scheduler) (equ : QuadEqu F) (x : List F) (y : List F)
    (crs : CRS G1 G2 GT) (rng : ρ) :
    (equ.commitAndProveU sch x y crs).forget rng = equ.commitAndProve sch x y crs rng ∧
    (¬ (x ≠ [] ∧ 2 ≤ crs.u.length) →
      ((equ.commitAndProveU sch x y crs).run rng).2 = (draws (F := F) G1 G2 (x.length) rng).2) ∧
    ((x ≠ [] ∧ 2 ≤ crs.u.length) →
      ¬ (y ≠ [] ∧ 2 ≤ crs.v.length ∧ equ.gamma.length = x.length ∧ ∃ g, equ.gamma.head? = some g ∧ g.length = y.length) →
      ((equ.commitAndProveU sch x y crs).run rng).2 = (draws (F := F) G1 G2 (x.length + y.length) rng).2) ∧
    ((x ≠ [] ∧ 2 ≤ crs.u.length) →
      (y ≠ [] ∧ 2 ≤ crs.v.length ∧ equ.gamma.length = x.length ∧ ∃ g, equ.gamma.head? = some g ∧ g.length = y.length) →
      ((equ.commitAndProveU sch x y crs).run rng).2 =
        (draws (F := F) G1 G2 (x.length + y.length + 1) rng).2) :=
  ⟨QuadEqu.cap_forget sch equ x y crs rng, QuadEqu.cap_state sch equ x y crs rng⟩

/-! ## Examples -/
namespace Ex

/-- An `append` that panics: the second commitment has two values and one row of randomness. -/
example : Commit.appendU.run ((⟨[⟨1, 2⟩], [[3, 4]]⟩ : Commit K K), (⟨[⟨1, 2⟩, ⟨0, 1⟩], [[3, 4]]⟩ : Commit K K)) =
    (.error .assertFailed, (⟨[⟨1, 2⟩], [[3, 4]]⟩, ⟨[⟨1, 2⟩, ⟨0, 1⟩], [[3, 4]]⟩)) := rfl

/-- `prove` with one row of randomness too few: it panics and the generator is untouched. -/
example : ((ppe7.proveU (fun _ => seqSched) [2] [3, 4] ⟨[⟨1, 2⟩], [[3, 4]]⟩ ⟨[⟨1, 2⟩, ⟨0, 1⟩], [[3, 4]]⟩ crs7).run
    (5 : Nat)).2 = 5 :=
  ((C69_ppe_prove (ρ := Nat) (fun _ => seqSched) ppe7 [2] [3, 4] ⟨[⟨1, 2⟩], [[3, 4]]⟩ ⟨[⟨1, 2⟩, ⟨0, 1⟩], [[3, 4]]⟩ crs7 5).2.2
    (fun h => absurd h.yrows (by decide))).2

/-- `commit_and_prove` with an equation for two values of `Y` but one given: only the draws of the
commitments have been made. -/
example : ((ppe7.commitAndProveU (fun _ => seqSched) [2] [3] crs7).run (5 : Nat)).2 =
    (draws (F := K) K K (2 * 1 + 2 * 1) (5 : Nat)).2 :=
  (C69_ppe_commit_and_prove (ρ := Nat) (fun _ => seqSched) ppe7 [2] [3] crs7 5).2.2.1
    ⟨by simp, rfl⟩ (by rintro ⟨-, -, -, g, hg, hl⟩; revert hl; cases hg; decide)

end Ex
end GS
