import Verif.Lemmas.Bits
import Verif.Props.TowerPoint

/-!
# Scalars of BLS12-381 in words, as a field

`E::ScalarField` of ark-bls12-381, as it is drawn at src/generator.rs:90-93 and src/prover/commit.rs:64, multiplied with points at src/data_structures.rs (`scalar_mul`) and held in matrices of src/statement.rs:117-179.
-/

namespace GS
open Tower

/-- Elements of `Fr` in words. -/
def FrW := Word Words.frWords

namespace FrW

instance : DecidableEq FrW := inferInstanceAs (DecidableEq (Word Words.frWords))

/-- The operations on words, as modelled in `Verif/Model/Words.lean`. -/
instance ops : Ops FrW := wordOps C126_bls.1

/-- What the words of a scalar stand for. -/
def toZ (a : FrW) : ZMod r381 := ofWord r381 (p := Words.frWords) a

theorem models : Models toZ := C127_words C126_bls.1

/-- The words of a number. -/
def ofZ (x : ZMod r381) : FrW := wordOf C126_bls.1 x.val

theorem toZ_ofZ (x : ZMod r381) : toZ (ofZ x) = x := (wordOf_residue C126_bls.1 _).trans (ZMod.natCast_zmod_val x)
theorem ofZ_toZ (a : FrW) : ofZ (toZ a) = a := models.bij.1 (toZ_ofZ _)

/-- `inverse`, and zero where there is none, as in fields of Mathlib. -/
instance : Inv FrW := ⟨fun a => (inverse a).getD 0⟩
/-- `/`: the product with the inverse. -/
instance : Div FrW := ⟨fun a b => a * b⁻¹⟩

theorem toZ_inv (a : FrW) : toZ a⁻¹ = (toZ a)⁻¹ := by
  show toZ ((inverse a).getD 0) = _
  by_cases h : toZ a = 0
  · rw [models.inverse_zero a h, h, inv_zero]; exact models.zero
  · obtain ⟨c, e, hc⟩ := models.inverse a h
    rw [e]; exact hc

theorem toZ_div (a b : FrW) : toZ (a / b) = toZ a / toZ b := by
  show toZ (a * b⁻¹) = _
  rw [models.mul, toZ_inv, div_eq_mul_inv]

/-! Multiples, powers and numbers, which no program uses: by the words of the result. -/
instance : SMul ℕ FrW := ⟨fun n a => ofZ (n • toZ a)⟩
instance : SMul ℤ FrW := ⟨fun n a => ofZ (n • toZ a)⟩
instance : SMul ℚ≥0 FrW := ⟨fun n a => ofZ (n • toZ a)⟩
instance : SMul ℚ FrW := ⟨fun n a => ofZ (n • toZ a)⟩
instance : Pow FrW ℕ := ⟨fun a n => ofZ (toZ a ^ n)⟩
instance : Pow FrW ℤ := ⟨fun a n => ofZ (toZ a ^ n)⟩
instance : NatCast FrW := ⟨fun n => ofZ n⟩
instance : IntCast FrW := ⟨fun n => ofZ n⟩
instance : NNRatCast FrW := ⟨fun n => ofZ n⟩
instance : RatCast FrW := ⟨fun n => ofZ n⟩

/-- The field whose sums, differences, products, negatives and inverses are those of the words. -/
instance : Field FrW := Function.Injective.field toZ models.bij.1 models.zero models.one models.add models.mul models.neg models.sub toZ_inv toZ_div
  (fun _ _ => toZ_ofZ _) (fun _ _ => toZ_ofZ _) (fun _ _ => toZ_ofZ _) (fun _ _ => toZ_ofZ _) (fun _ _ => toZ_ofZ _) (fun _ _ => toZ_ofZ _)
  (fun _ => toZ_ofZ _) (fun _ => toZ_ofZ _) (fun _ => toZ_ofZ _) (fun _ => toZ_ofZ _)

/-- Words and residues are the same field. -/
def equiv : FrW ≃+* ZMod r381 where
  toFun := toZ
  invFun := ofZ
  left_inv := ofZ_toZ
  right_inv := toZ_ofZ
  map_mul' := models.mul
  map_add' := models.add

/-- `into_bigint`. -/
def bigint (a : FrW) : List Nat := Words.intoBigint Words.frWords a.1

/-- A multiple of an element of a group by a scalar in words is that by the residue. -/
noncomputable instance module1 : Module FrW (blsG1.torsion r381) := Module.compHom _ equiv.toRingHom
@[inherit_doc module1]
noncomputable instance module2 : Module FrW (blsG2.torsion r381) := Module.compHom _ equiv.toRingHom
@[inherit_doc module1]
noncomputable instance moduleT : Module FrW (Gt (ZMod p381)) := Module.compHom _ equiv.toRingHom

/-- `mul_projective` of `g1::Config`, for scalars in words. -/
instance : MulProjective FrW FqW := ⟨fun P a => glvMulW (toFq beta1) P (Words.val a.bigint)⟩
/-- `mul_projective` of `g2::Config`, for scalars in words. -/
instance : MulProjective FrW (Fp2 FqW) := ⟨fun P a => mulWordsW P a.bigint⟩

/-- The format of scalars: the words of `into_bigint`, and `from_bigint` of the words that are read, as in src/prover/commit.rs:18-29, src/prover/prove.rs:55 and src/statement.rs:117-179. -/
def codec : Codec FrW where
  ser _ a := Words.toBytes a.bigint
  size _ _ := 32
  de _ _ bs := do
    let (b, rest) ← readExact 32 bs
    match Words.fromBigint Words.frWords (Words.fromBytes 4 b) with
    | some (some d) => if h : d.length = 4 ∧ (∀ x ∈ d, x < 2 ^ 64) ∧ Words.val d < Words.val Words.frWords then pure (⟨d, h⟩, rest) else .error .invalidData
    | _ => .error .invalidData
  check _ := .ok ()
  batchCheck := loopCheck fun _ => .ok ()

end FrW

/-- The pairing, with scalars in words. -/
noncomputable def blsEW : blsG1.torsion r381 →ₗ[FrW] blsG2.torsion r381 →ₗ[FrW] Gt (ZMod p381) :=
  LinearMap.mk₂ FrW (fun x y => blsE x y) (fun _ _ _ => by rw [map_add]; rfl) (fun c x y => (congrArg (fun f => f y) (blsE.map_smul (FrW.toZ c) x) :))
    (fun _ _ _ => map_add _ _ _) (fun c x y => (blsE x).map_smul (FrW.toZ c) y)

end GS
