import Verif.Model.Prove

/-!
# Derived `Debug` output

All public types of the crate derive `Debug`. `std` is not in `/repo`: the derive macro and the builders `debug_struct`,
`debug_tuple` and `debug_list` of `std::fmt` are modelled after their documented output, for `{:?}` (`pretty = false`) and
for `{:#?}`, which `dbg!` uses (`pretty = true`). Text is a list of characters. The output of field, group and target
elements is a parameter.
-/

namespace GS

/-- The indentation of nested output with `{:#?}`: four spaces at the start of every line. `start` says whether a line
starts here. Reached through `derive(Debug)` at src/data_structures.rs:128-136,
src/generator.rs:35, src/prover/commit.rs:18-24, src/prover/prove.rs:55-64 and
src/statement.rs:42-179. -/
def pad (start : Bool) : List Char → List Char
  | [] => []
  | c :: cs => (if start then "    ".toList else []) ++ c :: pad (c == '\n') cs

/-- The output of the elements: for each of the two styles, a text for each element. Reached
through `derive(Debug)` at src/data_structures.rs:128-136, src/generator.rs:35,
src/prover/commit.rs:18-24, src/prover/prove.rs:55-64 and src/statement.rs:42-179. -/
abbrev Dbg (α : Type) : Type := Bool → α → List Char

/-- Texts separated by `", "`. Reached through `derive(Debug)` at src/data_structures.rs:128-136,
src/generator.rs:35, src/prover/commit.rs:18-24, src/prover/prove.rs:55-64 and
src/statement.rs:42-179. -/
def commaSep : List (List Char) → List Char
  | [] => []
  | [s] => s
  | s :: ss => s ++ ", ".toList ++ commaSep ss

/-- Texts on lines of their own, indented and each followed by a comma. Reached through
`derive(Debug)` at src/data_structures.rs:128-136, src/generator.rs:35,
src/prover/commit.rs:18-24, src/prover/prove.rs:55-64 and src/statement.rs:42-179. -/
def commaLines (ss : List (List Char)) : List Char := (ss.map fun s => pad true (s ++ ",\n".toList)).flatten

/-- `debug_list`, used for `Vec`. Reached through `derive(Debug)` at
src/data_structures.rs:128-136, src/generator.rs:35, src/prover/commit.rs:18-24,
src/prover/prove.rs:55-64 and src/statement.rs:42-179. -/
def debugList {α : Type} (d : Dbg α) : Dbg (List α) := fun pretty l =>
  match pretty, l with
  | _, [] => "[]".toList
  | false, l => "[".toList ++ commaSep (l.map (d false)) ++ "]".toList
  | true, l => "[\n".toList ++ commaLines (l.map (d true)) ++ "]".toList

/-- `debug_tuple` with at least one field, used by the derive macro for structs with unnamed
fields. Reached through `derive(Debug)` at src/data_structures.rs:128-136, src/generator.rs:35,
src/prover/commit.rs:18-24, src/prover/prove.rs:55-64 and src/statement.rs:42-179. -/
def debugTuple (pretty : Bool) (name : String) (fields : List (List Char)) : List Char :=
  match pretty with
  | false => name.toList ++ "(".toList ++ commaSep fields ++ ")".toList
  | true => name.toList ++ "(\n".toList ++ commaLines fields ++ ")".toList

/-- A named field. Reached through `derive(Debug)` at src/data_structures.rs:128-136,
src/generator.rs:35, src/prover/commit.rs:18-24, src/prover/prove.rs:55-64 and
src/statement.rs:42-179. -/
def debugField (f : String × List Char) : List Char := f.1.toList ++ ": ".toList ++ f.2

/-- `debug_struct` with at least one field, used by the derive macro for structs with named
fields. Reached through `derive(Debug)` at src/data_structures.rs:128-136, src/generator.rs:35,
src/prover/commit.rs:18-24, src/prover/prove.rs:55-64 and src/statement.rs:42-179. -/
def debugStruct (pretty : Bool) (name : String) (fields : List (String × List Char)) : List Char :=
  match pretty with
  | false => name.toList ++ " { ".toList ++ commaSep (fields.map debugField) ++ " }".toList
  | true => name.toList ++ " {\n".toList ++ commaLines (fields.map debugField) ++ "}".toList

variable {F G G1 G2 GT : Type}

/-- `Debug` of a matrix, a `Vec` of `Vec`s, src/data_structures.rs:48. -/
def debugMatrix (d : Dbg F) : Dbg (Matrix F) := debugList (debugList d)

/-- `Debug` of `Com1` (with `name` `Com1`) and `Com2` (with `name` `Com2`), src/data_structures.rs:128-133. -/
def Com.debug (name : String) (d : Dbg G) : Dbg (Com G) := fun p c => debugTuple p name [d p c.c0, d p c.c1]

/-- `Debug` of `ComT`, src/data_structures.rs:136-142. -/
def ComT.debug (d : Dbg GT) : Dbg (ComT GT) := fun p c => debugTuple p "ComT" [d p c.t0, d p c.t1, d p c.t2, d p c.t3]

/-- `Debug` of `EquType`, src/statement.rs:42-49. -/
def EquType.debug : Dbg EquType := fun _ t =>
  match t with
  | .PairingProduct => "PairingProduct".toList
  | .MultiScalarG1 => "MultiScalarG1".toList
  | .MultiScalarG2 => "MultiScalarG2".toList
  | .Quadratic => "Quadratic".toList

/-- `Debug` of `Commit1` (with names `Commit1`, `Com1`) and `Commit2`, src/prover/commit.rs:18-28. -/
def Commit.debug (name com : String) (dF : Dbg F) (d : Dbg G) : Dbg (Commit F G) := fun p c =>
  debugStruct p name [("coms", debugList (Com.debug com d) p c.coms), ("rand", debugMatrix dF p c.rand)]

/-- `Debug` of `EquProof`, src/prover/prove.rs:55-61. -/
def EquProof.debug (dF : Dbg F) (d1 : Dbg G1) (d2 : Dbg G2) : Dbg (EquProof F G1 G2) := fun p pf =>
  debugStruct p "EquProof" [("pi", debugList (Com.debug "Com2" d2) p pf.pi), ("theta", debugList (Com.debug "Com1" d1) p pf.theta),
    ("equ_type", EquType.debug p pf.equ_type), ("rand", debugMatrix dF p pf.rand)]

/-- `Debug` of `CProof`, src/prover/prove.rs:64-69. -/
def CProof.debug (dF : Dbg F) (d1 : Dbg G1) (d2 : Dbg G2) : Dbg (CProof F G1 G2) := fun p cp =>
  debugStruct p "CProof" [("xcoms", Commit.debug "Commit1" "Com1" dF d1 p cp.xcoms),
    ("ycoms", Commit.debug "Commit2" "Com2" dF d2 p cp.ycoms), ("equ_proofs", debugList (EquProof.debug dF d1 d2) p cp.equ_proofs)]

/-- `Debug` of `CRS`, src/generator.rs:35-42. -/
def CRS.debug (d1 : Dbg G1) (d2 : Dbg G2) (dT : Dbg GT) : Dbg (CRS G1 G2 GT) := fun p crs =>
  debugStruct p "CRS" [("u", debugList (Com.debug "Com1" d1) p crs.u), ("v", debugList (Com.debug "Com2" d2) p crs.v),
    ("g1_gen", d1 p crs.g1_gen), ("g2_gen", d2 p crs.g2_gen), ("gt_gen", dT p crs.gt_gen)]

/-- `Debug` of `PPE`, src/statement.rs:117-123. -/
def PPE.debug (dF : Dbg F) (d1 : Dbg G1) (d2 : Dbg G2) (dT : Dbg GT) : Dbg (PPE F G1 G2 GT) := fun p q =>
  debugStruct p "PPE" [("a_consts", debugList d1 p q.a_consts), ("b_consts", debugList d2 p q.b_consts),
    ("gamma", debugMatrix dF p q.gamma), ("target", dT p q.target)]

/-- `Debug` of `MSMEG1`, src/statement.rs:138-144. -/
def MSMEG1.debug (dF : Dbg F) (d1 : Dbg G1) : Dbg (MSMEG1 F G1) := fun p q =>
  debugStruct p "MSMEG1" [("a_consts", debugList d1 p q.a_consts), ("b_consts", debugList dF p q.b_consts),
    ("gamma", debugMatrix dF p q.gamma), ("target", d1 p q.target)]

/-- `Debug` of `MSMEG2`, src/statement.rs:159-165. -/
def MSMEG2.debug (dF : Dbg F) (d2 : Dbg G2) : Dbg (MSMEG2 F G2) := fun p q =>
  debugStruct p "MSMEG2" [("a_consts", debugList dF p q.a_consts), ("b_consts", debugList d2 p q.b_consts),
    ("gamma", debugMatrix dF p q.gamma), ("target", d2 p q.target)]

/-- `Debug` of `QuadEqu`, src/statement.rs:179-185. -/
def QuadEqu.debug (dF : Dbg F) : Dbg (QuadEqu F) := fun p q =>
  debugStruct p "QuadEqu" [("a_consts", debugList dF p q.a_consts), ("b_consts", debugList dF p q.b_consts),
    ("gamma", debugMatrix dF p q.gamma), ("target", dF p q.target)]

end GS
