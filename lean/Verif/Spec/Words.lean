import Mathlib.Data.ZMod.Basic
import Verif.Model.Words

/-! # What arrays of words stand for -/

namespace GS.Words

/-- A modulus in an array of words: odd, and one bit of the highest word is not used. -/
structure Modulus (p : List Nat) : Prop where
  words : ∀ x ∈ p, x < 2 ^ 64
  odd : Odd (val p)
  big : 1 < val p
  spare : val p < 2 ^ (64 * p.length - 1)

/-- What is in the memory of an element: as many words as the modulus has, for a number below the modulus. -/
def Element (p a : List Nat) : Prop := a.length = p.length ∧ (∀ x ∈ a, x < 2 ^ 64) ∧ val a < val p

/-- The element that an array of words stands for: the number of the words divided by `2 ^ (64 * N)`. -/
def elem (p a : List Nat) : ZMod (val p) := val a * ((2 : ZMod (val p)) ^ (64 * p.length))⁻¹

/-- An array holds the modulus `m`. -/
def IsModulus (m : Nat) (p : List Nat) : Prop := Modulus p ∧ val p = m

/-- `elem`, for the modulus `m`. -/
def residue (m : Nat) (p a : List Nat) : ZMod m := val a * ((2 : ZMod m) ^ (64 * p.length))⁻¹

/-- `ark_bls12_381::Fr::MODULUS`. -/
def frWords : List Nat := [0xffffffff00000001, 0x53bda402fffe5bfe, 0x3339d80809a1d805, 0x73eda753299d7d48]

/-- `ark_bls12_381::Fq::MODULUS`. -/
def fqWords : List Nat := [0xb9feffffffffaaab, 0x1eabfffeb153ffff, 0x6730d2a0f6b0f624, 0x64774b84f38512bf, 0x4b1ba7b6434bacd7, 0x1a0111ea397fe69a]

end GS.Words
