/-!
# Panics, slice indexing, loops

Common vocabulary of the model: how Rust's panics, `assert_eq!`, slice indexing and
counted loops are represented.
-/

namespace GS

/-- The two ways library code in /repo/src panics: a failed `assert_eq!`
(e.g. src/data_structures.rs:591) and a slice index out of bounds (e.g. `self[0]`,
src/data_structures.rs:592).  Simplification: the panic message is dropped. -/
inductive Panic where
  | assertFailed
  | indexOutOfBounds
  deriving DecidableEq, Repr

/-- Result of a Rust call: it returns a value or panics. Panics come from code like
src/data_structures.rs:591-592. -/
abbrev Res (α : Type) := Except Panic α

/-- `Vec<Vec<E>>`, src/data_structures.rs:48 (`pub type Matrix<E>`).
`Vec` is a list; capacity (`Vec::with_capacity`) is not modelled. -/
abbrev Matrix (α : Type) := List (List α)

/-- Rust slice indexing `l[i]`: panics when `i` is out of bounds. As in
src/data_structures.rs:592. -/
def idx {α : Type} : List α → Nat → Res α
  | [], _ => .error .indexOutOfBounds
  | a :: _, 0 => .ok a
  | _ :: l, i + 1 => idx l i

/-- Rust `m[i][j]`. As in src/data_structures.rs:669. -/
def idx2 {α : Type} (m : Matrix α) (i j : Nat) : Res α := do
  let row ← idx m i
  idx row j

/-- Rust `assert_eq!(a, b)`. As in src/data_structures.rs:591. -/
def assertEq {α : Type} [DecidableEq α] (a b : α) : Res Unit :=
  if a = b then .ok () else .error .assertFailed

/-- A loop or iterator that pushes `f x` for each `x` in order, stopping at the first panic:
`for x in xs { v.push(f(x)) }` and `xs.map(f).collect()`. As in src/data_structures.rs:683-691. -/
def collect {α β : Type} (f : α → Res β) : List α → Res (List β)
  | [] => .ok []
  | a :: l => do
    let b ← f a
    let bs ← collect f l
    pure (b :: bs)

/-- A loop `for x in xs { acc = f(acc, x) }` stopping at the first panic. As in
src/data_structures.rs:594-603. -/
def foldRes {α β : Type} (f : β → α → Res β) : β → List α → Res β
  | b, [] => .ok b
  | b, a :: l => do
    let b' ← f b a
    foldRes f b' l

/-- `Iterator::sum` as implemented for the commitment groups,
src/data_structures.rs:244-251 and 475-479 (`iter.fold(Self::zero(), |a, b| a + b)`);
field elements sum the same way in arkworks. -/
def rustSum {α : Type} [Add α] [Zero α] (l : List α) : α :=
  l.foldl (fun a b => a + b) 0

/-- `self[0].len()`: the number of columns as read off the first row; panics on a matrix without rows
(e.g. src/data_structures.rs:592, 619, 631). -/
def firstRowLen {α : Type} (m : Matrix α) : Res Nat := do
  let r ← idx m 0
  pure r.length

/-- `m.is_empty() || m[0].is_empty()` (e.g. src/data_structures.rs:646). The `||` short-circuits,
so this never panics. -/
def isEmptyMat {α : Type} : Matrix α → Bool
  | [] => true
  | r :: _ => r.isEmpty

end GS
