import Verif.Lemmas.WordPoints
import Verif.Props.ScalarWords

/-!
# The points, scalars and target elements of BLS12-381 in words, as they are read, written and drawn

These are the methods of ark-bls12-381 and ark-ff behind what is written and read at src/data_structures.rs:128-135, src/generator.rs:35, src/statement.rs:117-179, src/prover/commit.rs:18-29 and src/prover/prove.rs:55, and behind the draws at
src/generator.rs:86-93 and src/prover/commit.rs:64-237.
-/

namespace GS
open Tower

/-- `into_bigint`. -/
def FqW.bigint (a : FqW) : List Nat := Words.intoBigint Words.fqWords a.1

/-- `Ord` of `Fp`: of the words of the numbers. -/
def leFqW (a b : FqW) : Bool := Words.cmp a.bigint b.bigint != .gt

/-- `Ord` of `QuadExtField`. -/
def leFq2W (a b : Fp2 FqW) : Bool := if a.c1 = b.c1 then leFqW a.c0 b.c0 else leFqW a.c1 b.c1

/-- `from_bigint`, of words that are read. -/
def fqOfWords (r : List Nat) : Option FqW :=
  match Words.fromBigint Words.fqWords r with
  | some (some d) => if h : d.length = 6 ∧ (∀ x ∈ d, x < 2 ^ 64) ∧ Words.val d < Words.val Words.fqWords then some ⟨d, h⟩ else none
  | _ => none

/-- `serialize_fq` and `deserialize_fq` of ark-bls12-381. -/
def beFqW : BeField FqW where
  size := 48
  enc x := (Words.toBytes x.bigint).reverse
  dec b := fqOfWords (Words.fromBytes 6 b.reverse)

/-- Coordinates of the second group. -/
def beFq2W : BeField (Fp2 FqW) := beQuad beFqW (fun a => ⟨a.1, a.2⟩) (fun z => (z.c0, z.c1))

/-- One half: half of the modulus plus one. -/
def halfW : FqW := wordOf C126_bls.2 ((p381 + 1) / 2)

/-- `g1::Config`. -/
def g1W : CurveW FqW := ⟨toFq 4, sqrtW, leFqW, testG1W (toFq beta1)⟩

/-- `g2::Config`. That its square root does not panic is C130. -/
def g2W : CurveW (Fp2 FqW) := ⟨⟨toFq 4, toFq 4⟩, fun a => (sqrt2W halfW a).getD none, leFq2W, testG2W (toFqPair (toFq2 coeff0)) (toFqPair (toFq2 coeff1))⟩

/-- Points of the first group, and of the second. -/
def codec1W : Codec (Affine FqW) := g1W.codec beFqW
@[inherit_doc codec1W]
def codec2W : Codec (Affine (Fp2 FqW)) := g2W.codec beFq2W

/-- `Fp`, little-endian. -/
def fqPlainW : Codec FqW where
  ser _ a := Words.toBytes a.bigint
  size _ _ := 48
  de _ _ bs := do
    let (b, rest) ← readExact 48 bs
    match fqOfWords (Words.fromBytes 6 b) with
    | some d => pure (d, rest)
    | none => .error .invalidData
  check _ := .ok ()
  batchCheck := loopCheck fun _ => .ok ()

/-- `Fq2`, `Fq6` and `Fq12`: the coordinates one after the other. -/
def fq2PlainW : Codec (Fp2 FqW) := structCodec (fun a => ⟨a.1, a.2⟩) (fun z => (z.c0, z.c1)) (prodCodec fqPlainW fqPlainW)
@[inherit_doc fq2PlainW]
def fq6PlainW : Codec (Fp6 FqW) := structCodec (fun a => ⟨a.1, a.2.1, a.2.2⟩) (fun z => (z.c0, z.c1, z.c2)) (prodCodec fq2PlainW (prodCodec fq2PlainW fq2PlainW))
@[inherit_doc fq2PlainW]
def fq12PlainW : Codec (Fp12 FqW) := structCodec (fun a => ⟨a.1, a.2⟩) (fun z => (z.c0, z.c1)) (prodCodec fq6PlainW fq6PlainW)

/-- `PairingOutput`, with the power of its `check`. -/
def codecTW : Codec (OutputW FqW) := outputCodec (T := Fp12 FqW) fq12PlainW fun f => decide (powW f Words.frWords = 1)

/-- Draws of scalars and of coordinates, from a generator of words. -/
def randFrW {σ : Type} (word : σ → Fin (2 ^ 64) × σ) (n : Nat) (s : σ) : Option (FrW × σ) :=
  match Words.rand Words.frWords 1 word n s with
  | some (d, s) => if h : d.length = 4 ∧ (∀ x ∈ d, x < 2 ^ 64) ∧ Words.val d < Words.val Words.frWords then some (⟨d, h⟩, s) else none
  | none => none
@[inherit_doc randFrW]
def randFqW {σ : Type} (word : σ → Fin (2 ^ 64) × σ) (n : Nat) (s : σ) : Option (FqW × σ) :=
  match Words.rand Words.fqWords 3 word n s with
  | some (d, s) => if h : d.length = 6 ∧ (∀ x ∈ d, x < 2 ^ 64) ∧ Words.val d < Words.val Words.fqWords then some (⟨d, h⟩, s) else none
  | none => none

/-- `Fr` and `Fq` for `Verif/Model/Sample.lean`. -/
def frConfig : FpConfig := ⟨r381, 64, 4, 255⟩
@[inherit_doc frConfig]
def fqConfig : FpConfig := ⟨p381, 64, 6, 381⟩

section
variable {σ : Type} (word : σ → Fin (2 ^ 64) × σ) (bit : σ → Bool × σ) (n : Nat)

/-- Draws of points, in words. -/
def drawG1W (s : σ) : Option (Projective FqW × σ) := g1W.rand (randFqW word n) bit (fun P => mulNatAffineW P cofactor1) n s
@[inherit_doc drawG1W]
def drawG2W (s : σ) : Option (Projective (Fp2 FqW) × σ) :=
  g2W.rand (quadRand (randFqW word n) fun a => ⟨a.1, a.2⟩) bit (fun P => mulNatAffineW P cofactor2) n s

/-- The draws of `Verif/Model/Sample.lean`. -/
noncomputable def drawG1 (s : σ) : Option (blsG1.torsion r381 × σ) := blsG1.rand (B := ZMod p381) (fqConfig.rand word n) bit (blsG1.byCofactor r381 cofactor1) n s
@[inherit_doc drawG1]
noncomputable def drawG2 (s : σ) : Option (blsG2.torsion r381 × σ) :=
  blsG2.rand (quadRand (B := ZMod p381) (fqConfig.rand word n) fun a => (⟨a.1, a.2⟩ : Fq2 (ZMod p381))) bit (blsG2.byCofactor r381 cofactor2) n s

/-- A generator that makes words and bits, for `generate_crs` in words: a draw that is not done after `n` attempts gives zero. -/
@[instance_reducible]
def wordRng : Rng σ FrW (Projective FqW) (Projective (Fp2 FqW)) where
  randF s := (randFrW word n s).getD (0, s)
  randG1 s := (drawG1W word bit n s).getD (zeroW, s)
  randG2 s := (drawG2W word bit n s).getD (zeroW, s)

/-- The same for the groups and the scalars as residues. -/
@[instance_reducible]
noncomputable def groupRng : Rng σ FrW (blsG1.torsion r381) (blsG2.torsion r381) where
  randF s := ((show Option (ZMod r381 × σ) from frConfig.rand word n s).map (Prod.map FrW.ofZ id)).getD (0, s)
  randG1 s := (drawG1 word bit n s).getD (0, s)
  randG2 s := (drawG2 word bit n s).getD (0, s)

end

end GS
