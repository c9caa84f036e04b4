import Verif.Model.TowerPoint
import Verif.Model.Words

/-!
# Multiplication of points by scalars in words

The scalars of src/data_structures.rs:336-342 and 381-387 are arrays of words as well (`Verif/Model/Words.lean`): they are taken out of Montgomery form, and their bits are gone through from the highest word to the lowest.
The source is not in /repo; modelled are `BitIteratorBE` of ark-ff 0.5 and `sw_double_and_add_projective` of ark-ec.
-/

namespace GS.Tower
variable {R : Type} [Ops R] [DecidableEq R]

/-- `BitIteratorBE::new`: the bits of an array of words, the highest first; bit `n` is bit `n - 64 * (n / 64)` of word `n / 64`. For the multiplications of src/data_structures.rs:336-342 and 381-387. -/
def bitsBE (a : List Nat) : List Bool :=
  (List.range (64 * a.length)).reverse.map fun n => (a.getD (n / 64) 0).testBit (n - 64 * (n / 64))

/-- `BitIteratorBE::without_leading_zeros`. For the multiplications of src/data_structures.rs:336-342 and 381-387. -/
def withoutLeadingZeros (a : List Nat) : List Bool := (bitsBE a).dropWhile fun b => !b

/-- `sw_double_and_add_projective`, for a scalar in words. For the multiplications of src/data_structures.rs:381-387 and src/generator.rs:95-98. -/
def mulWordsW (P : Projective R) (a : List Nat) : Projective R :=
  (withoutLeadingZeros a).foldl (fun res b => if b then addW (doubleW res) P else doubleW res) zeroW

end GS.Tower
