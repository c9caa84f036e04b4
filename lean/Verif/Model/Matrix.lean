import Verif.Model.Par
import Verif.Model.Com

/-!
# Matrix arithmetic

Models src/data_structures.rs:37-48 (trait `Mat`), 144-160 (column vectors), 543-747 (matrices of
commitment group elements, one macro for `Com1` and `Com2`) and 768-913 (matrices of field elements).
-/

namespace GS

/-- `col_vec_to_vec`, src/data_structures.rs:144-151. -/
def colVecToVec {α : Type} (mat : Matrix α) : Res (List α) :=
  if mat.length = 1 then idx mat 0 else collect (fun v => idx v 0) mat

/-- `vec_to_col_vec`, src/data_structures.rs:153-160. -/
def vecToColVec {α : Type} (vec : List α) : Matrix α := vec.map fun a => [a]

/-- One step of the transposition loop: `trans[i].push(x)`, src/data_structures.rs:639. -/
def pushCol {α : Type} (trans : Matrix α) (i : Nat) (x : α) : Res (Matrix α) := do
  let c ← idx trans i
  pure (trans.set i (c ++ [x]))

/-! ## `impl_base_commit_mats!`: matrices over `Com1`, `Com2` -/
namespace ComMat
variable {F G : Type}

/-- `add`, src/data_structures.rs:590-603. -/
def add [Add G] [Neg G] [Zero G] (self other : Matrix (Com G)) : Res (Matrix (Com G)) := do
  assertEq self.length other.length
  assertEq (← firstRowLen self) (← firstRowLen other)
  let m := self.length
  let n ← firstRowLen self
  collect (fun i => collect (fun j => do
    pure ((← idx2 self i j) + (← idx2 other i j))) (List.range n)) (List.range m)

variable [Field F] [AddCommGroup G] [Module F G]

/-- `neg`, src/data_structures.rs:605-615. -/
def neg (self : Matrix (Com G)) : Res (Matrix (Com G)) :=
  collect (fun i => do
    let row ← idx self i
    collect (fun j => do pure (-(← idx row j))) (List.range row.length)) (List.range self.length)

/-- `scalar_mul`, src/data_structures.rs:617-628. -/
def scalarMul (self : Matrix (Com G)) (other : F) : Res (Matrix (Com G)) := do
  let m := self.length
  let n ← firstRowLen self
  collect (fun i => collect (fun j => do
    pure ((← idx2 self i j).scalarMul other)) (List.range n)) (List.range m)

/-- `transpose`, src/data_structures.rs:630-643. -/
def transpose (self : Matrix (Com G)) : Res (Matrix (Com G)) := do
  let n ← firstRowLen self
  let trans := List.replicate n []
  foldRes (fun trans row =>
    foldRes (fun trans i => do pushCol trans i (← idx row i)) trans (List.range row.length))
    trans self

/-- `right_mul`, src/data_structures.rs:645-694. -/
def rightMul (sch : Scheduler) (self : Matrix (Com G)) (rhs : Matrix F) (isParallel : Bool) :
    Res (Matrix (Com G)) := do
  if isEmptyMat self then return []
  if isEmptyMat rhs then return []
  assertEq (← firstRowLen self) rhs.length
  let rowDim := self.length
  let colDim ← firstRowLen rhs
  if isParallel then
    parGrid sch rowDim colDim fun i j => do
      let row ← idx self i
      let dim := rhs.length
      let terms ← collect (fun k => do pure ((← idx row k).scalarMul (← idx2 rhs k j))) (List.range dim)
      pure (rustSum terms)
  else
    seqGrid rowDim colDim fun i j => do
      let row ← idx self i
      let dim := rhs.length
      let terms ← collect (fun k => do pure ((← idx row k).scalarMul (← idx2 rhs k j))) (List.range dim)
      pure (rustSum terms)

/-- `left_mul`, src/data_structures.rs:696-742. -/
def leftMul (sch : Scheduler) (self : Matrix (Com G)) (lhs : Matrix F) (isParallel : Bool) :
    Res (Matrix (Com G)) := do
  if isEmptyMat lhs then return []
  if isEmptyMat self then return []
  assertEq (← firstRowLen lhs) self.length
  let rowDim := lhs.length
  let colDim ← firstRowLen self
  if isParallel then
    parGrid sch rowDim colDim fun i j => do
      let row ← idx lhs i
      let dim := self.length
      let terms ← collect (fun k => do pure ((← idx2 self k j).scalarMul (← idx row k))) (List.range dim)
      pure (rustSum terms)
  else
    seqGrid rowDim colDim fun i j => do
      let row ← idx lhs i
      let dim := self.length
      let terms ← collect (fun k => do pure ((← idx2 self k j).scalarMul (← idx row k))) (List.range dim)
      pure (rustSum terms)

end ComMat

/-! ## `impl<F: Field> Mat<F> for Matrix<F>` -/
namespace FieldMat
variable {F : Type} [Field F]

/-- `add`, src/data_structures.rs:771-784. -/
def add (self other : Matrix F) : Res (Matrix F) := do
  assertEq self.length other.length
  assertEq (← firstRowLen self) (← firstRowLen other)
  let m := self.length
  let n ← firstRowLen self
  collect (fun i => collect (fun j => do
    pure ((← idx2 self i j) + (← idx2 other i j))) (List.range n)) (List.range m)

/-- `neg`, src/data_structures.rs:786-794. -/
def neg (self : Matrix F) : Res (Matrix F) :=
  collect (fun i => do
    let row ← idx self i
    collect (fun j => do pure (-(← idx row j))) (List.range row.length)) (List.range self.length)

/-- `scalar_mul`, src/data_structures.rs:796-807. -/
def scalarMul (self : Matrix F) (other : F) : Res (Matrix F) := do
  let m := self.length
  let n ← firstRowLen self
  collect (fun i => collect (fun j => do
    pure ((← idx2 self i j) * other)) (List.range n)) (List.range m)

/-- `transpose`, src/data_structures.rs:809-822. -/
def transpose (self : Matrix F) : Res (Matrix F) := do
  let n ← firstRowLen self
  let trans := List.replicate n []
  foldRes (fun trans row =>
    foldRes (fun trans i => do pushCol trans i (← idx row i)) trans (List.range row.length))
    trans self

/-- `right_mul`, src/data_structures.rs:824-869. -/
def rightMul (sch : Scheduler) (self rhs : Matrix F) (isParallel : Bool) : Res (Matrix F) := do
  if isEmptyMat self then return []
  if isEmptyMat rhs then return []
  assertEq (← firstRowLen self) rhs.length
  let rowDim := self.length
  let colDim ← firstRowLen rhs
  if isParallel then
    parGrid sch rowDim colDim fun i j => do
      let row ← idx self i
      let dim := rhs.length
      let terms ← collect (fun k => do pure ((← idx row k) * (← idx2 rhs k j))) (List.range dim)
      pure (rustSum terms)
  else
    seqGrid rowDim colDim fun i j => do
      let row ← idx self i
      let dim := rhs.length
      let terms ← collect (fun k => do pure ((← idx row k) * (← idx2 rhs k j))) (List.range dim)
      pure (rustSum terms)

/-- `left_mul`, src/data_structures.rs:871-912. -/
def leftMul (sch : Scheduler) (self lhs : Matrix F) (isParallel : Bool) : Res (Matrix F) := do
  if isEmptyMat lhs then return []
  if isEmptyMat self then return []
  assertEq (← firstRowLen lhs) self.length
  let rowDim := lhs.length
  let colDim ← firstRowLen self
  if isParallel then
    parGrid sch rowDim colDim fun i j => do
      let row ← idx lhs i
      let dim := self.length
      let terms ← collect (fun k => do pure ((← idx2 self k j) * (← idx row k))) (List.range dim)
      pure (rustSum terms)
  else
    seqGrid rowDim colDim fun i j => do
      let row ← idx lhs i
      let dim := self.length
      let terms ← collect (fun k => do pure ((← idx2 self k j) * (← idx row k))) (List.range dim)
      pure (rustSum terms)

end FieldMat

end GS
