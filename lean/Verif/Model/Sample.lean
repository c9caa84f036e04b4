import Verif.Model.Element

/-!
# From the words of the random number generator to scalars and points

`UniformRand::rand(rng)` (src/generator.rs:86-93, src/prover/commit.rs:64) is provided by ark-ff and ark-ec 0.5, which are not in /repo;
modelled after their published source, like the codecs of `Verif/Model/Element.lean`. The loops there have no bound. Here they take the number
of attempts they may make, and return `none` if that is used up; that a call returns is that it does so for some number.
`Verif/Model/Rng.lean` has draws of elements only. Not modelled: what the generator does to make its words.
-/

namespace GS
variable {σ : Type}

/-- `Standard` for `[u64; N]`: one word after the other (`b = 64`). Part of the draws at
src/generator.rs:86-93 and src/prover/commit.rs:64-237. -/
def takeWords {b : Nat} (word : σ → Fin (2 ^ b) × σ) : Nat → σ → List Nat × σ
  | 0, s => ([], s)
  | n + 1, s =>
    let (w, s) := word s
    let (l, s) := takeWords word n s
    (w.val :: l, s)

/-- A number from its limbs, the lowest first. Part of the draws at src/generator.rs:86-93 and
src/prover/commit.rs:64-237. -/
def limbsNat (b : Nat) : List Nat → Nat
  | [] => 0
  | w :: l => w + 2 ^ b * limbsNat b l

/-- `if let Some(val) = tmp.0.0.last_mut() { *val &= mask }`. Part of the draws at
src/generator.rs:86-93 and src/prover/commit.rs:64-237. -/
def maskLast (mask : Nat) : List Nat → List Nat
  | [] => []
  | [w] => [w &&& mask]
  | w :: v :: l => w :: maskLast mask (v :: l)

/-- The numbers of a prime field: `MODULUS`, the bits of a word (64), the number of limbs `N` and
`MODULUS_BIT_SIZE`. Part of the draws at src/generator.rs:86-93 and src/prover/commit.rs:64-237.
-/
structure FpConfig where
  modulus : Nat
  wordBits : Nat
  limbs : Nat
  bits : Nat

namespace FpConfig
variable (c : FpConfig)

/-- `Fp::num_bits_to_shave`. Part of the draws at src/generator.rs:86-93 and
src/prover/commit.rs:64-237. -/
def shave : Nat := c.wordBits * c.limbs - c.bits

/-- `if shave_bits == 64 { 0 } else { u64::MAX >> shave_bits }`. Part of the draws at
src/generator.rs:86-93 and src/prover/commit.rs:64-237. -/
def mask : Nat := if c.shave = c.wordBits then 0 else (2 ^ c.wordBits - 1) >>> c.shave

/-- `Fp(BigInt)`: the limbs are those of the element times `2^(64 N)` (Montgomery form). Part of
the draws at src/generator.rs:86-93 and src/prover/commit.rs:64-237. -/
def fromMont (v : Nat) : ZMod c.modulus := v * ((2 : ZMod c.modulus) ^ (c.wordBits * c.limbs))⁻¹

/-- `Distribution<Fp<P, N>> for Standard`: draw limbs, mask the highest, try again unless the
number is below the modulus. Part of the draws at src/generator.rs:86-93 and
src/prover/commit.rs:64-237. -/
def rand (word : σ → Fin (2 ^ c.wordBits) × σ) : Nat → σ → Option (ZMod c.modulus × σ)
  | 0, _ => none
  | n + 1, s =>
    let (l, s) := takeWords word c.limbs s
    let v := limbsNat c.wordBits (maskLast c.mask l)
    if v < c.modulus then some (c.fromMont v, s) else rand word n s

end FpConfig

/-- `Distribution<QuadExtField> for Standard`: the first coordinate is drawn first. Part of the
draws at src/generator.rs:86-93 and src/prover/commit.rs:64-237. -/
def quadRand {B C : Type} (randB : σ → Option (B × σ)) (mk : B × B → C) (s : σ) : Option (C × σ) := do
  let (c0, s) ← randB s
  let (c1, s) ← randB s
  pure (mk (c0, c1), s)

namespace SWCurve
variable {B : Type} [Field B] [DecidableEq B] (E : SWCurve B)

/-- `Affine::get_point_from_x_unchecked`. Part of the draws at src/generator.rs:86-93 and
src/prover/commit.rs:64-237. -/
def pointFromX (x : B) (greatest : Bool) : Option (Affine B) :=
  match E.ysFromX x with
  | none => none
  | some (smaller, larger) => some ⟨x, if greatest then larger else smaller, false⟩

/-- `Distribution<Affine<P>> for Standard` and for `Projective<P>`: draw a coordinate and a sign (`rng.gen::<bool>()`) until there is such a point,
and multiply it by the cofactor (`clear`). Part of the draws at src/generator.rs:86-93 and
src/prover/commit.rs:64-237. -/
def rand {G : Type} (randB : σ → Option (B × σ)) (bit : σ → Bool × σ) (clear : Affine B → G) : Nat → σ → Option (G × σ)
  | 0, _ => none
  | n + 1, s =>
    match randB s with
    | none => none
    | some (x, s) =>
      let (greatest, s) := bit s
      match E.pointFromX x greatest with
      | none => rand randB bit clear n s
      | some P => some (clear P, s)

end SWCurve

end GS
