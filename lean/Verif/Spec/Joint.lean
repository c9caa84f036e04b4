import Verif.Spec.Simulator
import Verif.Spec.Games
import Verif.Model.Prove
import Verif.Model.Verify

/-!
# Statements: several equations of any kinds about shared commitments

A prover holds four lists of variables, commits to each list once and proves a list of equations, each of any of the four
kinds, about these commitments. An equation of a given kind speaks about one list on the left and one on the right.
-/

namespace GS
variable {F G1 G2 GT : Type} [Field F] [AddCommGroup G1] [Module F G1] [AddCommGroup G2] [Module F G2]
  [AddCommGroup GT] [Module F GT]

/-- An equation of one of the four kinds. -/
inductive AnyEqu (F G1 G2 GT : Type) where
  | ppe (q : PPE F G1 G2 GT)
  | msmeg1 (q : MSMEG1 F G1)
  | msmeg2 (q : MSMEG2 F G2)
  | quad (q : QuadEqu F)

/-- Values of the four lists of variables: group elements `X` and scalars `x` on the left, `Y` and `y` on the right. -/
structure Vars (F G1 G2 : Type) where
  X : List G1
  x : List F
  Y : List G2
  y : List F

/-- Commitments to the four lists. -/
structure VarComs (F G1 G2 : Type) where
  X : Commit F G1
  x : Commit F G1
  Y : Commit F G2
  y : Commit F G2

/-- The variables satisfy the equation. -/
def AnyEqu.Holds (e : G1 →ₗ[F] G2 →ₗ[F] GT) (q : AnyEqu F G1 G2 GT) (w : Vars F G1 G2) : Prop :=
  match q with
  | .ppe q => q.Holds e w.X w.Y
  | .msmeg1 q => q.Holds w.X w.y
  | .msmeg2 q => q.Holds w.x w.Y
  | .quad q => q.Holds w.x w.y

/-- The sizes of the equation fit, and the two lists of variables that it speaks about are nonempty. -/
def AnyEqu.Fits (q : AnyEqu F G1 G2 GT) (w : Vars F G1 G2) : Prop :=
  match q with
  | .ppe q => w.X ≠ [] ∧ w.Y ≠ [] ∧ q.Dims w.X.length w.Y.length
  | .msmeg1 q => w.X ≠ [] ∧ w.y ≠ [] ∧ q.Dims w.X.length w.y.length
  | .msmeg2 q => w.x ≠ [] ∧ w.Y ≠ [] ∧ q.Dims w.x.length w.Y.length
  | .quad q => w.x ≠ [] ∧ w.y ≠ [] ∧ q.Dims w.x.length w.y.length

/-- The number of scalars drawn when proving the equation. -/
def AnyEqu.draws : AnyEqu F G1 G2 GT → Nat
  | .ppe _ => 4
  | .msmeg1 _ => 2
  | .msmeg2 _ => 2
  | .quad _ => 1

/-- The equation is not a PPE, or its target is 0. -/
def AnyEqu.Simulatable : AnyEqu F G1 G2 GT → Prop
  | .ppe q => q.target = 0
  | _ => True

/-- The four lists have the same lengths. -/
structure Vars.SameLengths (w w' : Vars F G1 G2) : Prop where
  X : w'.X.length = w.X.length
  x : w'.x.length = w.x.length
  Y : w'.Y.length = w.Y.length
  y : w'.y.length = w.y.length

/-- Zeros everywhere. -/
def Vars.zeros (w : Vars F G1 G2) : Vars F G1 G2 :=
  ⟨List.replicate w.X.length 0, List.replicate w.x.length 0, List.replicate w.Y.length 0, List.replicate w.y.length 0⟩

/-- The number of scalars drawn when committing. -/
def Vars.draws (w : Vars F G1 G2) : Nat := 2 * w.X.length + w.x.length + 2 * w.Y.length + w.y.length

section programs
variable {ρ : Type} [Rng ρ F G1 G2]

/-- Commit to the values as a batch; an empty list is not committed to (the batch functions panic on it). -/
def commitUnlessEmpty {α G : Type} (batch : List α → ρ → Res (Commit F G × ρ)) (xs : List α) (rng : ρ) :
    Res (Commit F G × ρ) :=
  match xs with
  | [] => pure (⟨[], []⟩, rng)
  | x :: xs => batch (x :: xs) rng

/-- Commit to all variables. -/
def Vars.commit (w : Vars F G1 G2) (crs : CRS G1 G2 GT) (rng : ρ) : Res (VarComs F G1 G2 × ρ) := do
  let (cX, rng) ← commitUnlessEmpty (fun xs rng => batchCommitG1 xs crs rng) w.X rng
  let (cx, rng) ← commitUnlessEmpty (fun xs rng => batchCommitScalarToB1 xs crs rng) w.x rng
  let (cY, rng) ← commitUnlessEmpty (fun xs rng => batchCommitG2 xs crs rng) w.Y rng
  let (cy, rng) ← commitUnlessEmpty (fun xs rng => batchCommitScalarToB2 xs crs rng) w.y rng
  pure (⟨cX, cx, cY, cy⟩, rng)

/-- Prove one equation. -/
def AnyEqu.prove (q : AnyEqu F G1 G2 GT) (sch : Nat → Scheduler) (w : Vars F G1 G2) (c : VarComs F G1 G2)
    (crs : CRS G1 G2 GT) (rng : ρ) : Res (EquProof F G1 G2 × ρ) :=
  match q with
  | .ppe q => q.prove sch w.X w.Y c.X c.Y crs rng
  | .msmeg1 q => q.prove sch w.X w.y c.X c.y crs rng
  | .msmeg2 q => q.prove sch w.x w.Y c.x c.Y crs rng
  | .quad q => q.prove sch w.x w.y c.x c.y crs rng

/-- Simulate the proof of one equation about commitments to zeros, given the trapdoors. -/
def AnyEqu.simulate (q : AnyEqu F G1 G2 GT) (sch : Nat → Scheduler) (t1 t2 : F) (z : Vars F G1 G2) (c : VarComs F G1 G2)
    (crs : CRS G1 G2 GT) (rng : ρ) : Res (EquProof F G1 G2 × ρ) :=
  match q with
  | .ppe q => q.prove sch z.X z.Y c.X c.Y crs rng
  | .msmeg1 q => q.simulateProof t2 c.X c.y crs rng
  | .msmeg2 q => q.simulateProof t1 c.x c.Y crs rng
  | .quad q => q.simulateProof t1 t2 c.x c.y crs rng

/-- Verify the proof of one equation. -/
def AnyEqu.verify (e : G1 →ₗ[F] G2 →ₗ[F] GT) (q : AnyEqu F G1 G2 GT) (sch : Scheduler) (c : VarComs F G1 G2)
    (pf : EquProof F G1 G2) (crs : CRS G1 G2 GT) [DecidableEq GT] : Res Bool :=
  match q with
  | .ppe q => q.verify e sch ⟨c.X, c.Y, [pf]⟩ crs
  | .msmeg1 q => q.verify e sch ⟨c.X, c.y, [pf]⟩ crs
  | .msmeg2 q => q.verify e sch ⟨c.x, c.Y, [pf]⟩ crs
  | .quad q => q.verify e sch ⟨c.x, c.y, [pf]⟩ crs

/-- Commit to all variables, then prove the equations one after the other; `sch k` schedules the `k`-th proof. -/
def proveStatement (sch : Nat → Nat → Scheduler) (qs : List (AnyEqu F G1 G2 GT)) (w : Vars F G1 G2)
    (crs : CRS G1 G2 GT) (rng : ρ) : Res ((VarComs F G1 G2 × List (EquProof F G1 G2)) × ρ) := do
  let (c, rng) ← w.commit crs rng
  let (pfs, rng) ← proveAll (fun (q : AnyEqu F G1 G2 GT × Nat) rng => q.1.prove (sch q.2) w c crs rng) qs.zipIdx rng
  pure ((c, pfs), rng)

/-- Commit to zeros, then simulate the proofs one after the other. Of `w` only the numbers of variables are used. -/
def simulateStatement (sch : Nat → Nat → Scheduler) (qs : List (AnyEqu F G1 G2 GT)) (t1 t2 : F) (w : Vars F G1 G2)
    (crs : CRS G1 G2 GT) (rng : ρ) : Res ((VarComs F G1 G2 × List (EquProof F G1 G2)) × ρ) := do
  let (c, rng) ← w.zeros.commit crs rng
  let (pfs, rng) ← proveAll
    (fun (q : AnyEqu F G1 G2 GT × Nat) rng => q.1.simulate (sch q.2) t1 t2 w.zeros c crs rng) qs.zipIdx rng
  pure ((c, pfs), rng)

end programs

/-- What is published: the values of all commitments and, for each proof, everything but the recorded randomness. -/
abbrev JointView (G1 G2 : Type) : Type :=
  (List (Com G1) × List (Com G1) × List (Com G2) × List (Com G2)) × List (List (Com G2) × List (Com G1) × EquType)

/-- The published part of commitments and proofs. -/
def jointView (r : VarComs F G1 G2 × List (EquProof F G1 G2)) : JointView G1 G2 :=
  ((r.1.X.coms, r.1.x.coms, r.1.Y.coms, r.1.y.coms), r.2.map fun pf => (pf.pi, pf.theta, pf.equ_type))

/-- What is published by `run` on the tape `t`. -/
def jointOn {N : Nat} (run : List F → Res ((VarComs F G1 G2 × List (EquProof F G1 G2)) × List F)) (t : Fin N → F) :
    Res (JointView G1 G2) :=
  (run (List.ofFn t)).map fun r => jointView r.1

open scoped BigOperators in
/-- Average of a distinguisher over what is published by `run` with uniform tape. -/
noncomputable def jointGame [Fintype F] {N : Nat}
    (run : List F → Res ((VarComs F G1 G2 × List (EquProof F G1 G2)) × List F)) (D : Res (JointView G1 G2) → ℝ) : ℝ :=
  𝔼 t : Fin N → F, D (jointOn run t)

end GS
