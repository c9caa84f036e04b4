import Verif.Model.Matrix
import Verif.Model.Generator

/-!
# Commitments, src/prover/commit.rs

The parallel flag is `false` everywhere in this file (src/prover/commit.rs:94, 194), so no scheduler
is consulted; `seqSched` is passed as a dummy.
-/

namespace GS

/-- `Commit1` and `Commit2`, src/prover/commit.rs:17-28: `Commit1<E>` is `Commit F G1`,
`Commit2<E>` is `Commit F G2`. -/
structure Commit (F G : Type) where
  coms : List (Com G)
  rand : Matrix F
  deriving DecidableEq

/-- `append`, src/prover/commit.rs:43-51.  Returns the new values of `self` and `other`.
The assertions come before any mutation, so a panic leaves both unchanged. -/
def Commit.append {F G : Type} (self other : Commit F G) : Res (Commit F G × Commit F G) := do
  assertEq self.coms.length self.rand.length
  assertEq other.coms.length other.rand.length
  let otherComs := other.coms
  let otherRand := other.rand
  pure (⟨self.coms ++ otherComs, self.rand ++ otherRand⟩, ⟨[], []⟩)

/-- The row-major scheduler; a dummy where no parallelism is used. Calls with `false`: see
src/prover/commit.rs:90-95, 190-195. -/
def seqSched : Scheduler where
  order := grid
  complete := fun _ _ => List.Perm.refl _

/-- The loop drawing an `n × 2` matrix, src/prover/commit.rs:86-88 and 186-188. -/
def drawRows2 {ρ F : Type} (randF : ρ → F × ρ) : Nat → ρ → Matrix F × ρ
  | 0, s => ([], s)
  | n + 1, s =>
    let (a, s) := randF s
    let (b, s) := randF s
    let (l, s) := drawRows2 randF n s
    ([a, b] :: l, s)

/-- The loop drawing an `n × 1` matrix, src/prover/commit.rs:136-138 and 236-238. -/
def drawRows1 {ρ F : Type} (randF : ρ → F × ρ) : Nat → ρ → Matrix F × ρ
  | 0, s => ([], s)
  | n + 1, s =>
    let (a, s) := randF s
    let (l, s) := drawRows1 randF n s
    ([a] :: l, s)

variable {F G1 G2 GT : Type} [Field F] [AddCommGroup G1] [Module F G1] [AddCommGroup G2] [Module F G2]
variable {ρ : Type} [Rng ρ F G1 G2]

/-- `commit_G1`, src/prover/commit.rs:58-75. -/
def commitG1 (xvar : G1) (key : CRS G1 G2 GT) (rng : ρ) : Res (Commit F G1 × ρ) := do
  let (r1, rng) := Rng.randF (F := F) G1 G2 rng
  let (r2, rng) := Rng.randF (F := F) G1 G2 rng
  let c := Com1.linearMap xvar
    + (← idx2 (vecToColVec key.u) 0 0).scalarMul r1
    + (← idx2 (vecToColVec key.u) 1 0).scalarMul r2
  pure (⟨[c], [[r1, r2]]⟩, rng)

/-- `batch_commit_G1`, src/prover/commit.rs:77-100. -/
def batchCommitG1 (xvars : List G1) (key : CRS G1 G2 GT) (rng : ρ) : Res (Commit F G1 × ρ) := do
  let m := xvars.length
  let (R, rng) := drawRows2 (Rng.randF (F := F) G1 G2) m rng
  let lin_x := vecToColVec (Com1.batchLinearMap xvars)
  let ru ← ComMat.leftMul seqSched (vecToColVec key.u) R false
  let coms ← ComMat.add lin_x ru
  pure (⟨← colVecToVec coms, R⟩, rng)

/-- `commit_scalar_to_B1`, src/prover/commit.rs:102-122. -/
def commitScalarToB1 (scalar_xvar : F) (key : CRS G1 G2 GT) (rng : ρ) : Res (Commit F G1 × ρ) := do
  let (r, rng) := Rng.randF (F := F) G1 G2 rng
  let c := (← Com1.scalarLinearMap scalar_xvar key)
    + (← idx2 (vecToColVec key.u) 0 0).scalarMul r
  pure (⟨[c], [[r]]⟩, rng)

/-- `batch_commit_scalar_to_B1`, src/prover/commit.rs:124-156. -/
def batchCommitScalarToB1 (scalar_xvars : List F) (key : CRS G1 G2 GT) (rng : ρ) :
    Res (Commit F G1 × ρ) := do
  let mprime := scalar_xvars.length
  let (r, rng) := drawRows1 (Rng.randF (F := F) G1 G2) mprime rng
  let slin_x := vecToColVec (← Com1.batchScalarLinearMap scalar_xvars key)
  let ru := vecToColVec (← collect (fun sca => do
    pure ((← idx2 (vecToColVec key.u) 0 0).scalarMul sca)) (← colVecToVec r))
  let coms ← ComMat.add slin_x ru
  pure (⟨← colVecToVec coms, r⟩, rng)

/-- `commit_G2`, src/prover/commit.rs:158-175. -/
def commitG2 (yvar : G2) (key : CRS G1 G2 GT) (rng : ρ) : Res (Commit F G2 × ρ) := do
  let (s1, rng) := Rng.randF (F := F) G1 G2 rng
  let (s2, rng) := Rng.randF (F := F) G1 G2 rng
  let d := Com2.linearMap yvar
    + (← idx2 (vecToColVec key.v) 0 0).scalarMul s1
    + (← idx2 (vecToColVec key.v) 1 0).scalarMul s2
  pure (⟨[d], [[s1, s2]]⟩, rng)

/-- `batch_commit_G2`, src/prover/commit.rs:177-200. -/
def batchCommitG2 (yvars : List G2) (key : CRS G1 G2 GT) (rng : ρ) : Res (Commit F G2 × ρ) := do
  let n := yvars.length
  let (S, rng) := drawRows2 (Rng.randF (F := F) G1 G2) n rng
  let lin_y := vecToColVec (Com2.batchLinearMap yvars)
  let sv ← ComMat.leftMul seqSched (vecToColVec key.v) S false
  let coms ← ComMat.add lin_y sv
  pure (⟨← colVecToVec coms, S⟩, rng)

/-- `commit_scalar_to_B2`, src/prover/commit.rs:202-222. -/
def commitScalarToB2 (scalar_yvar : F) (key : CRS G1 G2 GT) (rng : ρ) : Res (Commit F G2 × ρ) := do
  let (s, rng) := Rng.randF (F := F) G1 G2 rng
  let d := (← Com2.scalarLinearMap scalar_yvar key)
    + (← idx2 (vecToColVec key.v) 0 0).scalarMul s
  pure (⟨[d], [[s]]⟩, rng)

/-- `batch_commit_scalar_to_B2`, src/prover/commit.rs:224-256. -/
def batchCommitScalarToB2 (scalar_yvars : List F) (key : CRS G1 G2 GT) (rng : ρ) :
    Res (Commit F G2 × ρ) := do
  let nprime := scalar_yvars.length
  let (s, rng) := drawRows1 (Rng.randF (F := F) G1 G2) nprime rng
  let slin_y := vecToColVec (← Com2.batchScalarLinearMap scalar_yvars key)
  let sv := vecToColVec (← collect (fun sca => do
    pure ((← idx2 (vecToColVec key.v) 0 0).scalarMul sca)) (← colVecToVec s))
  let coms ← ComMat.add slin_y sv
  pure (⟨← colVecToVec coms, s⟩, rng)

end GS
