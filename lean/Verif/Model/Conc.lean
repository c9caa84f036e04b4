import Verif.Model.Matrix
import Mathlib.Logic.Function.Basic
import Mathlib.Logic.Relation

/-!
# Parallel matrix products, step by step

A finer model of the parallel branches of `right_mul` and `left_mul` (src/data_structures.rs:657-677, 708-727, 836-854,
883-900) than `parGrid`: worker threads interleave single steps. A row task (`.map(|i| …)` of the outer loop) starts the
entry tasks of its row (`.map(|j| …)` of the inner loop); an entry task is the loop `(0..dim).map(..).sum()`, each step
of which reads two entries, multiplies and adds to its accumulator. A row is collected when all its entries are there, the
matrix when all its rows are there. A panic of an entry may be passed on to the row, and from there to the caller, at any
later time, while other tasks still run or are not started.
-/

namespace GS
variable {β : Type}

/-- The state of the task of one entry: not started, running with the terms still to be added and the accumulator,
finished, panicked. A term that panics when it is computed is an error. The parallel loops of
src/data_structures.rs:659-679, 710-728, 838-856 and 885-901. -/
inductive Cell (β : Type) where
  | waiting
  | running (terms : List (Res β)) (acc : β)
  | done (b : β)
  | panicked (p : Panic)

/-- The state of the task of one row. The parallel loops of src/data_structures.rs:659-679,
710-728, 838-856 and 885-901. -/
inductive Row (β : Type) where
  | waiting
  | running (cells : Nat → Cell β)
  | done (row : List β)
  | panicked (p : Panic)

/-- One step of the loop `(0..dim).map(..).sum()`, src/data_structures.rs:669, 719, 847, 893; `ts` are all its terms. -/
inductive CellStep [Zero β] [Add β] (ts : List (Res β)) : Cell β → Cell β → Prop where
  | start : CellStep ts .waiting (.running ts 0)
  | add (b : β) (ts' : List (Res β)) (acc : β) : CellStep ts (.running (.ok b :: ts') acc) (.running ts' (acc + b))
  | panic (p : Panic) (ts' : List (Res β)) (acc : β) : CellStep ts (.running (.error p :: ts') acc) (.panicked p)
  | finish (acc : β) : CellStep ts (.running [] acc) (.done acc)

/-- One step of a row of `n` entries, src/data_structures.rs:660-675, 711-725, 839-852, 886-898. -/
inductive RowStep [Zero β] [Add β] (n : Nat) (ts : Nat → List (Res β)) : Row β → Row β → Prop where
  | start : RowStep n ts .waiting (.running fun _ => .waiting)
  | cell (cells : Nat → Cell β) (j : Nat) (c' : Cell β) (hj : j < n) (h : CellStep (ts j) (cells j) c') :
      RowStep n ts (.running cells) (.running (Function.update cells j c'))
  | finish (cells : Nat → Cell β) (f : Nat → β) (h : ∀ j < n, cells j = .done (f j)) :
      RowStep n ts (.running cells) (.done ((List.range n).map f))
  | panic (cells : Nat → Cell β) (j : Nat) (p : Panic) (hj : j < n) (h : cells j = .panicked p) :
      RowStep n ts (.running cells) (.panicked p)

/-- One step of some thread. The parallel loops of src/data_structures.rs:659-679, 710-728,
838-856 and 885-901. -/
inductive GridStep [Zero β] [Add β] (m n : Nat) (ts : Nat → Nat → List (Res β)) : (Nat → Row β) → (Nat → Row β) → Prop where
  | row (c : Nat → Row β) (i : Nat) (r' : Row β) (hi : i < m) (h : RowStep n (ts i) (c i) r') :
      GridStep m n ts c (Function.update c i r')

/-- What the caller may see: the collected rows, or a panic of a row. The parallel loops of
src/data_structures.rs:659-679, 710-728, 838-856 and 885-901. -/
inductive Outcome (m : Nat) (c : Nat → Row β) : Res (Matrix β) → Prop where
  | finish (f : Nat → List β) (h : ∀ i < m, c i = .done (f i)) : Outcome m c (.ok ((List.range m).map f))
  | panic (i : Nat) (p : Panic) (hi : i < m) (h : c i = .panicked p) : Outcome m c (.error p)

/-- A function that returns at once, or after a parallel computation of an `m × n` matrix whose entries are sums of the
given terms. The parallel loops of src/data_structures.rs:659-679, 710-728, 838-856 and 885-901.
-/
inductive Conc (β : Type) where
  | ret (r : Res (Matrix β))
  | par (m n : Nat) (ts : Nat → Nat → List (Res β))

/-- Before the first step. The parallel loops of src/data_structures.rs:659-679, 710-728, 838-856
and 885-901. -/
def gridStart : Nat → Row β := fun _ => .waiting

/-- `P` can return `r`. The parallel loops of src/data_structures.rs:659-679, 710-728, 838-856 and
885-901. -/
def Conc.Returns [Zero β] [Add β] : Conc β → Res (Matrix β) → Prop
  | .ret r', r => r = r'
  | .par m n ts, r => ∃ c, Relation.ReflTransGen (GridStep m n ts) gridStart c ∧ Outcome m c r

/-- `P` always returns: there is no infinite sequence of steps, and a state in which no thread can make a step has an
outcome. The parallel loops of src/data_structures.rs:659-679, 710-728, 838-856 and 885-901. -/
def Conc.Terminates [Zero β] [Add β] : Conc β → Prop
  | .ret _ => True
  | .par m n ts => (¬ ∃ run : Nat → Nat → Row β, run 0 = gridStart ∧ ∀ k, GridStep m n ts (run k) (run (k + 1))) ∧
      ∀ c, Relation.ReflTransGen (GridStep m n ts) gridStart c → (∀ c', ¬ GridStep m n ts c c') → ∃ r, Outcome m c r

/-- The parts of a product before the parallel loop: an early return of the empty matrix, a
failing assertion. The parallel loops of src/data_structures.rs:659-679, 710-728, 838-856 and
885-901. -/
def concProduct {A B : Type} (L : Matrix A) (R : Matrix B) (term : A → B → β) : Conc β :=
  if isEmptyMat L then .ret (.ok [])
  else if isEmptyMat R then .ret (.ok [])
  else
    match (do assertEq (← firstRowLen L) R.length; firstRowLen R : Res Nat) with
    | .error p => .ret (.error p)
    | .ok n => .par L.length n fun i j => (List.range R.length).map fun k => do
        let a ← idx2 L i k
        let b ← idx2 R k j
        pure (term a b)

/-- `right_mul(rhs, true)` of commitments, src/data_structures.rs:645-677. -/
def ComMat.rightMulConc {F G : Type} [Field F] [AddCommGroup G] [Module F G] (self : Matrix (Com G)) (rhs : Matrix F) :
    Conc (Com G) := concProduct self rhs fun a b => a.scalarMul b

/-- `left_mul(lhs, true)` of commitments, src/data_structures.rs:696-727. -/
def ComMat.leftMulConc {F G : Type} [Field F] [AddCommGroup G] [Module F G] (self : Matrix (Com G)) (lhs : Matrix F) :
    Conc (Com G) := concProduct lhs self fun b a => a.scalarMul b

/-- `right_mul(rhs, true)` of scalars, src/data_structures.rs:824-854. -/
def FieldMat.rightMulConc {F : Type} [Field F] (self rhs : Matrix F) : Conc F := concProduct self rhs fun a b => a * b

/-- `left_mul(lhs, true)` of scalars, src/data_structures.rs:871-900. -/
def FieldMat.leftMulConc {F : Type} [Field F] (self lhs : Matrix F) : Conc F := concProduct lhs self fun b a => a * b

end GS
