import Verif.Model.Element

/-!
# The points of BLS12-381

The curve of the tests and benchmarks in /repo, ark-bls12-381, overrides the format of points of ark-ec (`SWCurve.codec`) by that of
Zcash: big-endian coordinates with three flags in the first byte. Like the codecs in `Verif/Model/Element.lean` it is modelled
after its published source (`curves/util.rs`, `curves/g1.rs` and `curves/g2.rs` of that crate), for any field and curve. Scalars and elements of the target
group of BLS12-381 have the formats of `Verif/Model/Element.lean`.
-/

namespace GS

/-- The format of a coordinate: `size` bytes of which the three highest bits of the first one are
free. The elements of the derived formats at src/data_structures.rs:128-135, src/generator.rs:35
and src/statement.rs:117-179, for the curve of tests/prover.rs:6. -/
structure BeField (B : Type) where
  size : Nat
  enc : B → Bytes
  dec : Bytes → Option B

/-- `serialize_fq` and `deserialize_fq`: big-endian; numbers from the modulus on are rejected. The
elements of the derived formats at src/data_structures.rs:128-135, src/generator.rs:35 and
src/statement.rs:117-179, for the curve of tests/prover.rs:6. -/
def beFp (p k : Nat) : BeField (ZMod p) where
  size := k
  enc x := (leBytes k x.val).reverse
  dec b := if leNat b.reverse < p then some (leNat b.reverse : ZMod p) else none

/-- A coordinate in the quadratic extension, in `serialize_with_mode` and `read_g2_*`: `c1` first.
The elements of the derived formats at src/data_structures.rs:128-135, src/generator.rs:35 and
src/statement.rs:117-179, for the curve of tests/prover.rs:6. -/
def beQuad {B C : Type} (c : BeField B) (mk : B × B → C) (fields : C → B × B) : BeField C where
  size := 2 * c.size
  enc x := c.enc (fields x).2 ++ c.enc (fields x).1
  dec b := do
    let c1 ← c.dec (b.take c.size)
    let c0 ← c.dec (b.drop c.size)
    some (mk (c0, c1))

/-- `EncodingFlags`. The elements of the derived formats at src/data_structures.rs:128-135,
src/generator.rs:35 and src/statement.rs:117-179, for the curve of tests/prover.rs:6. -/
structure BlsFlags where
  compressed : Bool
  infinity : Bool
  largest : Bool
  deriving DecidableEq, Repr

/-- `EncodingFlags::get_flags`, for the first byte. The elements of the derived formats at
src/data_structures.rs:128-135, src/generator.rs:35 and src/statement.rs:117-179, for the curve of
tests/prover.rs:6. -/
def BlsFlags.ofByte (b : UInt8) : Except SerErr BlsFlags :=
  let compressed := decide ((b >>> 7) &&& 1 = 1)
  let infinity := decide ((b >>> 6) &&& 1 = 1)
  let largest := decide ((b >>> 5) &&& 1 = 1)
  if largest && (!compressed || infinity) then .error .invalidData else .ok ⟨compressed, infinity, largest⟩

/-- `EncodingFlags::encode_flags`. The elements of the derived formats at
src/data_structures.rs:128-135, src/generator.rs:35 and src/statement.rs:117-179, for the curve of
tests/prover.rs:6. -/
def BlsFlags.encode (fl : BlsFlags) : Bytes → Bytes
  | [] => []
  | b :: l =>
    let b := if fl.compressed then b ||| 0x80 else b
    let b := if fl.infinity then b ||| 0x40 else b
    let b := if fl.compressed && !fl.infinity && fl.largest then b ||| 0x20 else b
    b :: l

/-- `read_bytes_with_offset` with `mask`: the first byte without its flags. The elements of the
derived formats at src/data_structures.rs:128-135, src/generator.rs:35 and
src/statement.rs:117-179, for the curve of tests/prover.rs:6. -/
def maskFirst : Bytes → Bytes
  | [] => []
  | b :: l => (b &&& 0x1f) :: l

/-- `read_exact` with `map_err`. The elements of the derived formats at
src/data_structures.rs:128-135, src/generator.rs:35 and src/statement.rs:117-179, for the curve of
tests/prover.rs:6. -/
def readData (k : Nat) (bs : Bytes) : Except SerErr (Bytes × Bytes) :=
  match readExact k bs with
  | .ok r => .ok r
  | .error _ => .error .invalidData

namespace SWCurve
variable {B : Type} [Field B] [DecidableEq B] (E : SWCurve B)

/-- `read_g1_compressed` and `read_g2_compressed`. The elements of the derived formats at
src/data_structures.rs:128-135, src/generator.rs:35 and src/statement.rs:117-179, for the curve of
tests/prover.rs:6. -/
def blsCompressed (c : BeField B) (bs : Bytes) : Except SerErr (Affine B × Bytes) := do
  let (b, bs) ← readData c.size bs
  let fl ← BlsFlags.ofByte (b.headD 0)
  if !fl.compressed then .error .unexpectedFlags
  else if fl.infinity then
    if maskFirst b = List.replicate c.size 0 then pure (Affine.identity, bs) else .error .invalidData
  else match c.dec (maskFirst b) with
    | none => .error .invalidData
    | some x => match E.ysFromX x with
      | none => .error .invalidData
      | some (smaller, larger) => pure (⟨x, if fl.largest then larger else smaller, false⟩, bs)

/-- `read_g1_uncompressed` and `read_g2_uncompressed`. The elements of the derived formats at
src/data_structures.rs:128-135, src/generator.rs:35 and src/statement.rs:117-179, for the curve of
tests/prover.rs:6. -/
def blsUncompressed (c : BeField B) (bs : Bytes) : Except SerErr (Affine B × Bytes) := do
  let (b, bs) ← readData (2 * c.size) bs
  let fl ← BlsFlags.ofByte (b.headD 0)
  if fl.compressed then .error .unexpectedFlags
  else if fl.infinity then
    if maskFirst (b.take c.size) = List.replicate c.size 0 ∧ b.drop c.size = List.replicate c.size 0 then pure (Affine.identity, bs)
    else .error .invalidData
  else match c.dec (maskFirst (b.take c.size)), c.dec (b.drop c.size) with
    | some x, some y => pure (⟨x, y, false⟩, bs)
    | _, _ => .error .invalidData

/-- `read_g1_compressed` or `read_g1_uncompressed`. The elements of the derived formats at
src/data_structures.rs:128-135, src/generator.rs:35 and src/statement.rs:117-179, for the curve of
tests/prover.rs:6. -/
def blsRead (c : BeField B) (m : Compress) (bs : Bytes) : Except SerErr (Affine B × Bytes) :=
  match m with
  | .Yes => E.blsCompressed c bs
  | .No => blsUncompressed c bs

/-- `Affine`, with the methods of ark-bls12-381. When reading with validation, only the test for
the subgroup is made. The elements of the derived formats at src/data_structures.rs:128-135,
src/generator.rs:35 and src/statement.rs:117-179, for the curve of tests/prover.rs:6. -/
def blsCodec (c : BeField B) : Codec (Affine B) where
  ser m P :=
    let fl : BlsFlags := ⟨decide (m = .Yes), P.infinity, !E.le P.y (-P.y)⟩
    let Q := if fl.infinity then Affine.identity else P
    match m with
    | .Yes => fl.encode (c.enc Q.x)
    | .No => fl.encode (c.enc Q.x ++ c.enc Q.y)
  size m _ := match m with
    | .Yes => c.size
    | .No => 2 * c.size
  de m v bs := do
    let (P, bs) ← E.blsRead c m bs
    if v = .Yes ∧ E.inSubgroup P = false then .error .invalidData else pure (P, bs)
  check := E.check
  batchCheck := loopCheck E.check

end SWCurve
end GS
