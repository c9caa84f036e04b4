import Verif.Model.Basic

/-!
# Rayon's parallel map-collect over a two-dimensional grid of tasks

Models the nested `into_par_iter().map(..).collect()` of src/data_structures.rs:658-677,
709-727, 837-854 and 884-900: an outer parallel loop over the rows of the result, each starting an
inner parallel loop over the columns.  The atomic unit of work is the closure computing one entry.
The closures only read shared data and return a value, which rayon stores in the slot
belonging to its index; after all tasks are done the slots are read out in index order.

Over-approximation: a schedule is *any* order of all entry tasks; rayon produces some of them.
A panicking task makes the whole product panic with that task's panic (with several panicking tasks
the one that comes first in the schedule wins).
-/

namespace GS

/-- All tasks of an `m × n` result, in row-major order. The parallel loops of
src/data_structures.rs:659-679, 710-728, 838-856 and 885-901. -/
def grid (m n : Nat) : List (Nat × Nat) :=
  (List.range m).flatMap fun i => (List.range n).map fun j => (i, j)

/-- A scheduler picks, for each size of the result, an order in which the tasks are executed. The
parallel loops of src/data_structures.rs:659-679, 710-728, 838-856 and 885-901. -/
structure Scheduler where
  order : Nat → Nat → List (Nat × Nat)
  complete : ∀ m n, (order m n).Perm (grid m n)

/-- Memory for the results: one slot per entry. The parallel loops of
src/data_structures.rs:659-679, 710-728, 838-856 and 885-901. -/
abbrev Slots (β : Type) := Nat × Nat → Option β

/-- Write one slot. The parallel loops of src/data_structures.rs:659-679, 710-728, 838-856 and
885-901. -/
def Slots.write {β : Type} (s : Slots β) (p : Nat × Nat) (b : β) : Slots β :=
  fun q => if q = p then some b else s q

/-- Read one slot; reading a slot nobody wrote is an error (cannot happen, see `C22`). The
parallel loops of src/data_structures.rs:659-679, 710-728, 838-856 and 885-901. -/
def Slots.read {β : Type} (s : Slots β) (p : Nat × Nat) : Res β :=
  match s p with
  | some b => .ok b
  | none => .error .indexOutOfBounds

/-- Run the tasks in the given order, each writing its slot. The parallel loops of
src/data_structures.rs:659-679, 710-728, 838-856 and 885-901. -/
def runTasks {β : Type} (f : Nat → Nat → Res β) (order : List (Nat × Nat)) (s : Slots β) :
    Res (Slots β) :=
  foldRes (fun s p => do
    let b ← f p.1 p.2
    pure (s.write p b)) s order

/-- Nested parallel map-collect, src/data_structures.rs:658-677. -/
def parGrid {β : Type} (sch : Scheduler) (m n : Nat) (f : Nat → Nat → Res β) : Res (Matrix β) := do
  let s ← runTasks f (sch.order m n) (fun _ => none)
  collect (fun i => collect (fun j => s.read (i, j)) (List.range n)) (List.range m)

/-- The sequential map-collect used when `is_parallel` is false, src/data_structures.rs:679-692. -/
def seqGrid {β : Type} (m n : Nat) (f : Nat → Nat → Res β) : Res (Matrix β) :=
  collect (fun i => collect (fun j => f i j) (List.range n)) (List.range m)

end GS
