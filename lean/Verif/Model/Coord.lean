import Verif.Lemmas.Fr381
import Verif.Model.Target
import Verif.Model.RawProve
import Mathlib.Data.Nat.Bits

/-!
# Coordinates of points

In the other files a point is one value. The library keeps points in affine coordinates, converts them with `.into_group()` to compute with them in Jacobian
coordinates, and converts the results back with `.into()` and `.into_affine()`. This is modelled here for curves `y² = x³ + b`, to which BLS12-381 belongs.
The functions of `Verif/Model/Raw.lean` and `Verif/Model/RawProve.lean` assume no law of addition, multiplication by scalars and pairing, and so are, with the
instances below, the verifier and the prover on coordinates. The source is not in /repo; modelled are `curves/short_weierstrass/affine.rs`,
`curves/short_weierstrass/group.rs`, `curves/short_weierstrass/mod.rs`, `scalar_mul/mod.rs` and `scalar_mul/glv.rs` of ark-ec and `curves/g1.rs` of ark-bls12-381.

Simplified: coordinates are elements of the field, not of Montgomery's representation; the pairing of two points is a parameter.
-/

namespace GS

/-- `Projective`: Jacobian coordinates. The values of `.into_group()`, src/data_structures.rs:208-209, 337-338 and 382-383. -/
@[ext]
structure Projective (K : Type) where
  x : K
  y : K
  z : K

section
variable {K : Type} [Field K] [DecidableEq K]

/-- `Projective::zero`. src/generator.rs:57-58. -/
def Projective.zero : Projective K := ⟨1, 1, 0⟩

/-- `into_group`, src/data_structures.rs:208-209, 337-338 and 382-383. -/
def Affine.intoGroup (P : Affine K) : Projective K := if P.infinity then .zero else ⟨P.x, P.y, 1⟩

namespace Projective

/-- `into_affine` and `into`, src/data_structures.rs:187-188, 208-209, 341 and 386 and src/generator.rs:104-116. -/
def intoAffine (P : Projective K) : Affine K :=
  if P.z = 0 then .identity
  else if P.z = 1 then ⟨P.x, P.y, false⟩
  else
    let zinv := P.z⁻¹
    let zinv_squared := zinv * zinv
    ⟨P.x * zinv_squared, P.y * (zinv_squared * zinv), false⟩

/-- `double_in_place`, for curves with `a = 0`; called by the additions and multiplications of src/data_structures.rs:181-243 and 336-387. -/
def double (P : Projective K) : Projective K :=
  if P.z = 0 then P
  else
    let a := P.x * P.x
    let b := P.y * P.y
    let c := b * b
    let d := 4 * (P.x * b)
    let e := a + 2 * a
    let x3 := e * e - 2 * d
    ⟨x3, (d - x3) * e - 8 * c, 2 * (P.z * P.y)⟩

/-- `+=` of a point in affine coordinates; called by `+` at src/data_structures.rs:187-188 and 197-198. -/
def addAffine (P : Projective K) (Q : Affine K) : Projective K :=
  if Q.infinity then P
  else if P.z = 0 then ⟨Q.x, Q.y, 1⟩
  else
    let z1z1 := P.z * P.z
    let u2 := Q.x * z1z1
    let s2 := P.z * Q.y * z1z1
    if P.x = u2 ∧ P.y = s2 then P.double
    else
      let h := u2 - P.x
      let hh := h * h
      let i := 4 * hh
      let j := -(h * i)
      let r := 2 * (s2 - P.y)
      let v := P.x * i
      let x3 := r * r + j - 2 * v
      ⟨x3, r * (v - x3) + 2 * P.y * j, 2 * (P.z * h)⟩

/-- `+=`; called by `-` at src/generator.rs:57-58 and 74-75 and by the multiplications of src/data_structures.rs:336-387 and src/generator.rs:95-98. -/
def add (P Q : Projective K) : Projective K :=
  if P.z = 0 then Q
  else if Q.z = 0 then P
  else
    let z1z1 := P.z * P.z
    let z2z2 := Q.z * Q.z
    let u1 := P.x * z2z2
    let u2 := Q.x * z1z1
    let s1 := P.y * Q.z * z2z2
    let s2 := Q.y * P.z * z1z1
    if u1 = u2 ∧ s1 = s2 then P.double
    else
      let h := u2 - u1
      let i := (2 * h) * (2 * h)
      let j := -(h * i)
      let r := 2 * (s2 - s1)
      let v := u1 * i
      let x3 := r * r + j - 2 * v
      ⟨x3, r * (v - x3) + 2 * s1 * j, 2 * (P.z * Q.z * h)⟩

/-- Unary `-`, src/data_structures.rs:208-209. -/
def neg (P : Projective K) : Projective K := ⟨P.x, -P.y, P.z⟩

/-- `-`, src/generator.rs:57-58 and 74-75. -/
def sub (P Q : Projective K) : Projective K := P.add Q.neg

/-- `==`. A point in affine coordinates is converted first. src/data_structures.rs:128-134 (deserialization, which tests for the subgroups). -/
def same (P Q : Projective K) : Bool :=
  if P.z = 0 then decide (Q.z = 0)
  else if Q.z = 0 then false
  else
    let z1z1 := P.z * P.z
    let z2z2 := Q.z * Q.z
    decide (P.x * z2z2 = Q.x * z1z1) && decide (P.y * (z2z2 * Q.z) = Q.y * (z1z1 * P.z))

/-- `sw_double_and_add_projective`: from the highest bit that is set. For the multiplications of src/data_structures.rs:381-387 and src/generator.rs:95-98. -/
def mulNat (P : Projective K) (n : Nat) : Projective K :=
  n.bits.reverse.foldl (fun res b => if b then res.double.add P else res.double) .zero

/-- `sw_double_and_add_affine`: the same, from affine coordinates. For the tests of the subgroups, src/data_structures.rs:128-134 (deserialization). -/
def _root_.GS.Affine.mulNat (P : Affine K) (n : Nat) : Projective K :=
  n.bits.reverse.foldl (fun res b => if b then res.double.addAffine P else res.double) .zero

end Projective
end

/-! ## The method of Gallant, Lambert and Vanstone -/

/-- `GLVConfig::SCALAR_DECOMP_COEFFS` of the first group. For the curve of tests/prover.rs:6. -/
def glvCoeffs : Int × Int × Int × Int := (228988810152649578064853576960394133504, 1, -1, 228988810152649578064853576960394133503)

/-- Division rounded to the nearest integer, as in `scalar_decomposition`: one is added if the remainder is more than half of the divisor. For the
multiplications of src/data_structures.rs:336-342. -/
def roundDiv (a r : Int) : Int := if a.tmod r + a.tmod r > r then a.tdiv r + 1 else a.tdiv r

/-- `GLVConfig::scalar_decomposition`. For the multiplications of src/data_structures.rs:336-342. -/
def glvSplit (k : Nat) : Int × Int :=
  let (n11, n12, n21, n22) := glvCoeffs
  let beta1 := roundDiv (k * n22) r381
  let beta2 := roundDiv (k * -n12) r381
  let b1 := beta1 * n11 + beta2 * n21
  let b2 := beta1 * n12 + beta2 * n22
  (k - b1, -b2)

/-- `BitIteratorBE::new` of an integer of four limbs. For the multiplications of src/data_structures.rs:336-342. -/
def bits256 (n : Nat) : List Bool := (List.range 256).reverse.map fun i => n.testBit i

section
variable {K : Type} [Field K] [DecidableEq K]

/-- `GLVConfig::endomorphism`. For the multiplications of src/data_structures.rs:336-342. -/
def Projective.endo (P : Projective K) : Projective K := ⟨beta1 * P.x, P.y, P.z⟩

/-- The loop of `GLVConfig::glv_mul_projective`. For the multiplications of src/data_structures.rs:336-342. -/
def glvLoop (b1 b2 b1b2 : Projective K) (res : Projective K) (skip : Bool) : List (Bool × Bool) → Projective K
  | [] => res
  | (false, false) :: l => if skip then glvLoop b1 b2 b1b2 res false l else glvLoop b1 b2 b1b2 res.double skip l
  | (true, false) :: l => glvLoop b1 b2 b1b2 (res.double.add b1) skip l
  | (false, true) :: l => glvLoop b1 b2 b1b2 (res.double.add b2) skip l
  | (true, true) :: l => glvLoop b1 b2 b1b2 (res.double.add b1b2) skip l

/-- `GLVConfig::glv_mul_projective`. The two halves of the scalar are elements of the scalar field. For the multiplications of src/data_structures.rs:336-342. -/
def Projective.glvMul (P : Projective K) (k : Nat) : Projective K :=
  let (k1, k2) := glvSplit k
  let b1 := if 0 < k1 then P else P.neg
  let b2 := if 0 < k2 then P.endo else P.endo.neg
  glvLoop b1 b2 (b1.add b2) .zero true ((bits256 (k1.natAbs % r381)).zip (bits256 (k2.natAbs % r381)))

end

/-! ## The tests for the subgroups -/

section
variable {K : Type} [Field K] [DecidableEq K]

/-- `is_in_correct_subgroup_assuming_on_curve` of the first group, by the multiplication `mul` of points in Jacobian coordinates. For the points of
tests/prover.rs:6. -/
def coordG1 (mul : Projective K → Nat → Projective K) (P : Affine K) : Bool :=
  let x_times_p := P.mulNat blsX
  if x_times_p.same P.intoGroup && !P.infinity then false
  else
    let minus_x_squared_times_p := (mul x_times_p blsX).neg
    let endomorphism_p : Affine K := ⟨P.x * beta1, P.y, P.infinity⟩
    minus_x_squared_times_p.same endomorphism_p.intoGroup

variable [Fact (∀ r : K, r ^ 2 ≠ -1 + 0 * r)]

/-- `is_in_correct_subgroup_assuming_on_curve` of the second group. For the points of tests/prover.rs:6. -/
def coordG2 (P : Affine (Fq2 K)) : Bool :=
  let x_times_point := (P.mulNat blsX).neg
  let p_times_point : Affine (Fq2 K) := ⟨star P.x * toFq2 coeff0, star P.y * toFq2 coeff1, P.infinity⟩
  x_times_point.same p_times_point.intoGroup

end

/-! ## What the library does with points in affine coordinates -/

/-- `*=` by a scalar of a point in Jacobian coordinates: `mul_projective` of the curve, src/data_structures.rs:339-340 and 384-385. -/
class MulProjective (F K : Type) where
  mul : Projective K → F → Projective K

section
variable {F K : Type} [Field K] [DecidableEq K]

/-- `(P + Q).into()`, src/data_structures.rs:187-188. -/
instance : Add (Affine K) := ⟨fun P Q => (P.intoGroup.addAffine Q).intoAffine⟩

/-- `(-(P.into_group())).into()`, src/data_structures.rs:208-209. -/
instance : Neg (Affine K) := ⟨fun P => P.intoGroup.neg.intoAffine⟩

/-- `zero`, src/data_structures.rs:257-278. -/
instance : Zero (Affine K) := ⟨.identity⟩

/-- `into_group`, `*=` and `into_affine`, src/data_structures.rs:336-342 and 381-387. -/
instance [MulProjective F K] : SMul F (Affine K) := ⟨fun a P => (MulProjective.mul P.intoGroup a).intoAffine⟩

end

/-- Multiplication by doubling and adding: the default of ark-ec. For the multiplications of src/data_structures.rs:336-342 and 381-387. -/
@[reducible] def doubleAndAdd (r : Nat) (K : Type) [Field K] [DecidableEq K] : MulProjective (ZMod r) K := ⟨fun P a => P.mulNat a.val⟩

/-- Multiplication by the method of Gallant, Lambert and Vanstone, in the first group of BLS12-381. For the multiplications of src/data_structures.rs:336-342. -/
@[reducible] def glvMethod (K : Type) [Field K] [DecidableEq K] : MulProjective (ZMod r381) K := ⟨fun P a => P.glvMul a.val⟩

/-! ## CRS generation -/

section
variable {F K1 K2 RT : Type} [Field K1] [DecidableEq K1] [Field K2] [DecidableEq K2] [MulProjective F K1] [MulProjective F K2]

/-- `prepare_real_binding_key`, src/generator.rs:45-60. -/
def prepareRealCoord (_g1_gen : Projective K1) (_g2_gen : Projective K2) (q1 : Projective K1) (t1 : F) (q2 : Projective K2) (t2 : F) :
    Projective K1 × Projective K2 :=
  let v1 := (MulProjective.mul q1 t1).sub .zero
  let v2 := (MulProjective.mul q2 t2).sub .zero
  (v1, v2)

/-- `prepare_simulated_hinding_key`, src/generator.rs:62-77. -/
def prepareSimulatedCoord (g1_gen : Projective K1) (g2_gen : Projective K2) (q1 : Projective K1) (t1 : F) (q2 : Projective K2) (t2 : F) :
    Projective K1 × Projective K2 :=
  let v1 := (MulProjective.mul q1 t1).sub g1_gen
  let v2 := (MulProjective.mul q2 t2).sub g2_gen
  (v1, v2)

/-- `generate_crs` after the random draws, src/generator.rs:95-117, with the choice of key left open as in `assembleCrs` of `Verif/Model/Generator.lean`. -/
def assembleCoord (pair : Affine K1 → Affine K2 → RT)
    (prepare : Projective K1 → Projective K2 → Projective K1 → F → Projective K2 → F → Projective K1 × Projective K2)
    (p1 : Projective K1) (p2 : Projective K2) (a1 a2 t1 t2 : F) : CRS (Affine K1) (Affine K2) RT :=
  let q1 := MulProjective.mul p1 a1
  let q2 := MulProjective.mul p2 a2
  let u1 := MulProjective.mul p1 t1
  let u2 := MulProjective.mul p2 t2
  let v := prepare p1 p2 q1 t1 q2 t2
  let v1 := v.1
  let v2 := v.2
  let u11 : Com (Affine K1) := ⟨p1.intoAffine, q1.intoAffine⟩
  let u12 : Com (Affine K1) := ⟨u1.intoAffine, v1.intoAffine⟩
  let u21 : Com (Affine K2) := ⟨p2.intoAffine, q2.intoAffine⟩
  let u22 : Com (Affine K2) := ⟨u2.intoAffine, v2.intoAffine⟩
  { u := [u11, u12]
    v := [u21, u22]
    g1_gen := p1.intoAffine
    g2_gen := p2.intoAffine
    gt_gen := pair p1.intoAffine p2.intoAffine }

/-- `generate_crs`, src/generator.rs:80-119. Generators are drawn in Jacobian coordinates. -/
def generateCoord {ρ : Type} [Rng ρ F (Projective K1) (Projective K2)] (pair : Affine K1 → Affine K2 → RT) (rng : ρ) : CRS (Affine K1) (Affine K2) RT × ρ :=
  let (p1, rng) := Rng.randG1 F (Projective K2) rng
  let (p2, rng) := Rng.randG2 F (Projective K1) rng
  let ((a1 : F), rng) := Rng.randF (Projective K1) (Projective K2) rng
  let ((a2 : F), rng) := Rng.randF (Projective K1) (Projective K2) rng
  let ((t1 : F), rng) := Rng.randF (Projective K1) (Projective K2) rng
  let ((t2 : F), rng) := Rng.randF (Projective K1) (Projective K2) rng
  (assembleCoord pair prepareRealCoord p1 p2 a1 a2 t1 t2, rng)

end

/-! ## The target group -/

section
variable (K : Type) [Field K]

/-- `PairingOutput`: an element of the target field, written additively. src/data_structures.rs:136-142. -/
def PairingOutput := Fq12 K

/-- `+=` multiplies, src/data_structures.rs:399-411. -/
noncomputable instance : Add (PairingOutput K) := ⟨fun a b => (show Fq12 K from a) * (show Fq12 K from b)⟩

/-- `zero`, src/data_structures.rs:412-421. -/
noncomputable instance : Zero (PairingOutput K) := ⟨(1 : Fq12 K)⟩

/-- `neg` takes the conjugate (`cyclotomic_inverse`), src/data_structures.rs:437-444. It panics on zero, which is left out. -/
noncomputable instance : Neg (PairingOutput K) := ⟨fun a => show Fq12 K from star (show Fq12 K from a)⟩

/-- `-=` multiplies by the conjugate, src/data_structures.rs:445-457. -/
noncomputable instance : Sub (PairingOutput K) := ⟨fun a b => (show Fq12 K from a) * star (show Fq12 K from b)⟩

/-- `==`, src/data_structures.rs:391-396. -/
noncomputable instance : DecidableEq (PairingOutput K) := Classical.decEq _

end

end GS
