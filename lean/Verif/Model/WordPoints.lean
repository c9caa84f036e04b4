import Verif.Model.Bits
import Verif.Model.Bls
import Verif.Model.Bls381
import Verif.Model.Sample

/-!
# Square roots, and reading, writing and drawing points, with the operations of words

Reading a compressed point and drawing one takes a square root. `Verif/Model/Bls.lean`, `Verif/Model/Bls381.lean` and `Verif/Model/Sample.lean` do this over fields; here only operations are given, as in `Verif/Model/Tower.lean`.
The source is not in /repo; modelled are `Field::pow`, `SqrtPrecomputation::Case3Mod4`, `legendre`, `QuadExtField::sqrt` and `Distribution<Fp>` of ark-ff 0.5, `get_ys_from_x_unchecked` and `Distribution<Affine>` of ark-ec and
`curves/util.rs` of ark-bls12-381. They are reached through the derives at src/data_structures.rs:128-135, src/generator.rs:35 and src/statement.rs:117-179, and from the draws at src/generator.rs:86-93 and src/prover/commit.rs:64-237.
Bytes of a word are taken from the bytes of the whole number; that there are 48 is checked by the caller.
-/

namespace GS.Tower

section
variable {R : Type} [Ops R] [DecidableEq R]

/-- `Field::pow`: square, and multiply for a bit that is set, from the highest. For the points read at src/data_structures.rs:128-135. -/
def powW (a : R) (e : List Nat) : R :=
  (withoutLeadingZeros e).foldl (fun res b => if b then square res * a else square res) 1

/-- `SqrtPrecomputation::Case3Mod4`, with `MODULUS_PLUS_ONE_DIV_FOUR` in words. For the points read at src/data_structures.rs:128-135. -/
def sqrtW (a : R) : Option R :=
  let result := powW a (Words.ofNat 6 ((p381 + 1) / 4))
  if square result = a then some result else none

/-- `legendre().is_qr()`, with `MODULUS_MINUS_ONE_DIV_TWO` in words. For the points read at src/data_structures.rs:128-135. -/
def isQrW (a : R) : Bool :=
  let s := powW a (Words.ofNat 6 ((p381 - 1) / 2))
  if s = 0 then false else decide (s = 1)

/-- `QuadExtField::sqrt`; `none` if it panics. `twoInv` is one half, made from the modulus. For the points read at src/data_structures.rs:128-135. -/
def sqrt2W (twoInv : R) (a : Fp2 R) : Option (Option (Fp2 R)) :=
  if a.c1 = 0 then
    if isQrW a.c0 then some ((sqrtW a.c0).map fun c0 => ⟨c0, 0⟩)
    else (inverse (-1 : R)).map fun i => (sqrtW (a.c0 * i)).map fun res => ⟨0, res⟩
  else match sqrtW (square a.c0 - -(square a.c1)) with
    | none => some none
    | some alpha =>
      let delta := (alpha + a.c0) * twoInv
      let delta := if isQrW delta then delta else delta - alpha
      (sqrtW delta).bind fun c0 => (inverse c0).map fun c0Inv =>
        let cand : Fp2 R := ⟨c0, a.c1 * twoInv * c0Inv⟩
        if square cand = a then some cand else none

/-- What the methods of a curve with `COEFF_A = 0` are given: `COEFF_B`, `sqrt`, `Ord` and the test for the subgroup. For the points read at src/data_structures.rs:128-135. -/
structure CurveW (R : Type) where
  b : R
  sqrt : R → Option R
  le : R → R → Bool
  test : Affine R → Bool

namespace CurveW
variable (E : CurveW R)

/-- `get_ys_from_x_unchecked`: the smaller root first. For the points read at src/data_structures.rs:128-135. -/
def ysFromX (x : R) : Option (R × R) :=
  (E.sqrt (square x * x + E.b)).map fun y => if E.le (-y) y then (-y, y) else (y, -y)

/-- `is_on_curve`. For the points read at src/data_structures.rs:128-135. -/
def onCurve (P : Affine R) : Bool := P.infinity || decide (square P.y = square P.x * P.x + E.b)

/-- `Valid::check`. For the points read at src/data_structures.rs:128-135. -/
def check (P : Affine R) : Except SerErr Unit := if E.onCurve P && E.test P then .ok () else .error .invalidData

/-- `read_g1_compressed` and `read_g2_compressed`. For the points read at src/data_structures.rs:128-135. -/
def compressed (c : BeField R) (bs : Bytes) : Except SerErr (Affine R × Bytes) := do
  let (b, bs) ← readData c.size bs
  let fl ← BlsFlags.ofByte (b.headD 0)
  if !fl.compressed then .error .unexpectedFlags
  else if fl.infinity then
    if maskFirst b = List.replicate c.size 0 then pure (identityW, bs) else .error .invalidData
  else match c.dec (maskFirst b) with
    | none => .error .invalidData
    | some x => match E.ysFromX x with
      | none => .error .invalidData
      | some (smaller, larger) => pure (⟨x, if fl.largest then larger else smaller, false⟩, bs)

/-- `read_g1_uncompressed` and `read_g2_uncompressed`. For the points read at src/data_structures.rs:128-135. -/
def uncompressed (c : BeField R) (bs : Bytes) : Except SerErr (Affine R × Bytes) := do
  let (b, bs) ← readData (2 * c.size) bs
  let fl ← BlsFlags.ofByte (b.headD 0)
  if fl.compressed then .error .unexpectedFlags
  else if fl.infinity then
    if maskFirst (b.take c.size) = List.replicate c.size 0 ∧ b.drop c.size = List.replicate c.size 0 then pure (identityW, bs)
    else .error .invalidData
  else match c.dec (maskFirst (b.take c.size)), c.dec (b.drop c.size) with
    | some x, some y => pure (⟨x, y, false⟩, bs)
    | _, _ => .error .invalidData

/-- `Affine`, with the methods of ark-bls12-381. For the points read and written at src/data_structures.rs:128-135. -/
def codec (c : BeField R) : Codec (Affine R) where
  ser m P :=
    let fl : BlsFlags := ⟨decide (m = .Yes), P.infinity, !E.le P.y (-P.y)⟩
    let Q := if fl.infinity then identityW else P
    match m with
    | .Yes => fl.encode (c.enc Q.x)
    | .No => fl.encode (c.enc Q.x ++ c.enc Q.y)
  size m _ := match m with
    | .Yes => c.size
    | .No => 2 * c.size
  de m v bs := do
    let (P, bs) ← match m with
      | .Yes => E.compressed c bs
      | .No => uncompressed c bs
    if v = .Yes ∧ E.test P = false then .error .invalidData else pure (P, bs)
  check := E.check
  batchCheck := loopCheck E.check

/-- `Distribution<Affine<P>> for Standard`: draw a coordinate and a sign until there is such a point, and multiply it by the cofactor. Part of the draws at src/generator.rs:86-93. -/
def rand {σ G : Type} (randB : σ → Option (R × σ)) (bit : σ → Bool × σ) (clear : Affine R → G) : Nat → σ → Option (G × σ)
  | 0, _ => none
  | n + 1, s =>
    match randB s with
    | none => none
    | some (x, s) =>
      let (greatest, s) := bit s
      match E.ysFromX x with
      | none => rand randB bit clear n s
      | some (smaller, larger) => some (clear ⟨x, if greatest then larger else smaller, false⟩, s)

end CurveW
end

end GS.Tower

namespace GS.Words

/-- `Distribution<Fp<P, N>> for Standard`: the words that are drawn are the element, if they are below the modulus. Part of the draws at src/generator.rs:86-93 and src/prover/commit.rs:64-237. -/
def rand {σ : Type} (p : List Nat) (shave : Nat) (word : σ → Fin (2 ^ 64) × σ) : Nat → σ → Option (List Nat × σ)
  | 0, _ => none
  | n + 1, s =>
    let (l, s) := takeWords word p.length s
    let l := maskLast (if shave = 64 then 0 else (2 ^ 64 - 1) >>> shave) l
    if cmp l p = .lt then some (l, s) else rand p shave word n s

end GS.Words
