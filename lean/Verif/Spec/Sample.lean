import Verif.Model.Sample
import Verif.Spec.Tape

/-! # What is asked of the numbers of a field, and how often a value is drawn -/

open scoped BigOperators

namespace GS
variable {σ : Type} {b : Nat}

/-- An odd modulus of `bits` bits, and enough limbs for it but not more. -/
structure FpConfig.Lawful (c : FpConfig) : Prop where
  odd : Odd c.modulus
  limbs_pos : 0 < c.limbs
  low : 2 ^ c.bits ≤ 2 * c.modulus
  high : c.modulus < 2 ^ c.bits
  fits : c.bits ≤ c.wordBits * c.limbs
  enough : c.wordBits * c.limbs ≤ c.bits + c.wordBits

/-- The state of the generator after `i` words. -/
def stateAt (word : σ → Fin (2 ^ b) × σ) (s : σ) : Nat → σ
  | 0 => s
  | i + 1 => (word (stateAt word s i)).2

/-- The word number `i`, from 0. -/
def wordAt (word : σ → Fin (2 ^ b) × σ) (s : σ) (i : Nat) : Nat := (word (stateAt word s i)).1.val

/-- The number that attempt `k` looks at: the lowest `bits` bits of as many words as there are limbs. -/
def FpConfig.attempt (c : FpConfig) (word : σ → Fin (2 ^ c.wordBits) × σ) (s : σ) (k : Nat) : Nat :=
  (∑ i ∈ Finset.range c.limbs, wordAt word s (k * c.limbs + i) * 2 ^ (c.wordBits * i)) % 2 ^ c.bits

/-- `M` scalars, one after the other, in at most `n` attempts together. -/
def FpConfig.rands (c : FpConfig) (word : σ → Fin (2 ^ c.wordBits) × σ) : Nat → Nat → σ → Option (List (ZMod c.modulus) × σ)
  | 0, _, s => some ([], s)
  | _ + 1, 0, _ => none
  | M + 1, n + 1, s =>
    match c.rand word 1 s with
    | some (x, s) => (rands c word M n s).map fun (l, s) => (x :: l, s)
    | none => rands c word (M + 1) n (stateAt word s c.limbs)

/-- The words of a list. -/
def listWord (s : List (Fin (2 ^ b))) : Fin (2 ^ b) × List (Fin (2 ^ b)) := (s.headD ⟨0, Nat.two_pow_pos b⟩, s.tail)

/-- The number of ways to choose the words of `n` attempts so that the first `M` scalars drawn are `v`. -/
noncomputable def FpConfig.count (c : FpConfig) (M n : Nat) (v : Option (List (ZMod c.modulus))) : Nat :=
  Nat.card {w : Fin (n * c.limbs) → Fin (2 ^ c.wordBits) // (c.rands listWord M n (List.ofFn w)).map Prod.fst = v}

/-- The scalars of a random number generator are drawn from its words. -/
def FpConfig.Samples (c : FpConfig) (word : σ → Fin (2 ^ c.wordBits) × σ) (G1 G2 : Type) [Rng σ (ZMod c.modulus) G1 G2] : Prop :=
  ∀ s, ∃ n, c.rand word n s = some (Rng.randF (F := ZMod c.modulus) G1 G2 s)

/-- A generator of coordinates and signs reading a list of them. -/
def listCoord {B : Type} (s : List (B × Bool)) : Option (B × List (B × Bool)) := s.head?.map fun a => (a.1, s)

/-- See `listCoord`. -/
def listBit {B : Type} (s : List (B × Bool)) : Bool × List (B × Bool) := ((s.head?.map Prod.snd).getD false, s.tail)

/-- The number of ways to choose `n` coordinates and signs so that the point drawn is `g`. -/
noncomputable def SWCurve.count {B G : Type} [Field B] [DecidableEq B] (E : SWCurve B) (clear : Affine B → G) (n : Nat) (g : Option G) : Nat :=
  Nat.card {w : Fin n → B × Bool // (E.rand listCoord listBit clear n (List.ofFn w)).map Prod.fst = g}

end GS
