import Verif.Spec.Opening
import Verif.Model.Prove

/-!
# Proving about other values than those committed to

`prove` takes the values of the variables and the commitments to them as separate arguments, and nothing in the code compares them.
-/

namespace GS
variable {F G1 G2 GT : Type} [Field F] [AddCommGroup G1] [Module F G1] [AddCommGroup G2] [Module F G2]
  [AddCommGroup GT] [Module F GT]

/-- `∑ i, ∑ j, gamma i j • f (x i) (y j)`. -/
def crossSum {F A B C : Type} [AddCommMonoid C] [SMul F C] (f : A → B → C) (x : List A) (y : List B) (gamma : Matrix F) : C :=
  (List.zipWith (fun x row => (List.zipWith (fun g y => g • f x y) row y).sum) x gamma).sum

/-- Entrywise difference of two lists. -/
def diffs {G : Type} [Sub G] (x x' : List G) : List G := List.zipWith (· - ·) x x'

/-- Group elements, embedded with first component zero. -/
def embG {G : Type} [Zero G] (x : List G) : List (Com G) := x.map fun x => ⟨0, x⟩

/-- Scalars, embedded as multiples of `w`. -/
def embS {G : Type} [AddCommGroup G] [Module F G] (w : Com G) (x : List F) : List (Com G) := x.map fun x => x • w

/-- The trace that differing values leave in the verification equation: commitments `c` and `d` made for the embedded values `X` and
`Y`, and a proof made for the embedded values `X'` and `Y'`. -/
def defect (e : G1 →ₗ[F] G2 →ₗ[F] GT) (gamma : Matrix F) (c X X' : List (Com G1)) (d Y Y' : List (Com G2)) : ComT GT :=
  crossSum (fun x y => ComT.pairing e x y) (diffs c X) (diffs Y Y') gamma +
    crossSum (fun x y => ComT.pairing e x y) (diffs X X') (diffs d Y) gamma

/-- Every column of `gamma` combines the values `x` to the same element as the values `x'`. -/
def SameLeft {G : Type} [AddCommGroup G] [Module F G] (gamma : Matrix F) (x x' : List G) : Prop :=
  ∀ j, (List.zipWith (fun row x => row.getD j (0 : F) • x) gamma x).sum = (List.zipWith (fun row x => row.getD j (0 : F) • x) gamma x').sum

/-- Every row of `gamma` combines the values `y` to the same element as the values `y'`. -/
def SameRight {G : Type} [AddCommGroup G] [Module F G] (gamma : Matrix F) (y y' : List G) : Prop :=
  ∀ row ∈ gamma, (List.zipWith (· • ·) row y).sum = (List.zipWith (· • ·) row y').sum

section
variable {ρ : Type} [Rng ρ F G1 G2]

/-- Commit to `x` and `y`, then call `prove` with these commitments and the values `x'` and `y'`. -/
def PPE.proveOther (sch : Nat → Scheduler) (equ : PPE F G1 G2 GT) (x x' : List G1) (y y' : List G2) (crs : CRS G1 G2 GT)
    (rng : ρ) : Res (CProof F G1 G2 × ρ) := do
  let (xc, rng) ← batchCommitG1 (F := F) x crs rng
  let (yc, rng) ← batchCommitG2 (F := F) y crs rng
  let (pf, rng) ← equ.prove sch x' y' xc yc crs rng
  pure (⟨xc, yc, [pf]⟩, rng)

@[inherit_doc PPE.proveOther]
def MSMEG1.proveOther (sch : Nat → Scheduler) (equ : MSMEG1 F G1) (x x' : List G1) (y y' : List F) (crs : CRS G1 G2 GT)
    (rng : ρ) : Res (CProof F G1 G2 × ρ) := do
  let (xc, rng) ← batchCommitG1 (F := F) x crs rng
  let (yc, rng) ← batchCommitScalarToB2 y crs rng
  let (pf, rng) ← equ.prove sch x' y' xc yc crs rng
  pure (⟨xc, yc, [pf]⟩, rng)

@[inherit_doc PPE.proveOther]
def MSMEG2.proveOther (sch : Nat → Scheduler) (equ : MSMEG2 F G2) (x x' : List F) (y y' : List G2) (crs : CRS G1 G2 GT)
    (rng : ρ) : Res (CProof F G1 G2 × ρ) := do
  let (xc, rng) ← batchCommitScalarToB1 x crs rng
  let (yc, rng) ← batchCommitG2 (F := F) y crs rng
  let (pf, rng) ← equ.prove sch x' y' xc yc crs rng
  pure (⟨xc, yc, [pf]⟩, rng)

@[inherit_doc PPE.proveOther]
def QuadEqu.proveOther (sch : Nat → Scheduler) (equ : QuadEqu F) (x x' y y' : List F) (crs : CRS G1 G2 GT)
    (rng : ρ) : Res (CProof F G1 G2 × ρ) := do
  let (xc, rng) ← batchCommitScalarToB1 x crs rng
  let (yc, rng) ← batchCommitScalarToB2 y crs rng
  let (pf, rng) ← equ.prove sch x' y' xc yc crs rng
  pure (⟨xc, yc, [pf]⟩, rng)

end
end GS
