import Verif.Model.Ark
import Verif.Model.Tower

/-!
# Points of BLS12-381 in Jacobian coordinates, as they are computed

`Verif/Model/Coord.lean` has the formulas over a field. Here they are with the operations that ark-ec calls, doublings, squares and sums of two products among them, over coordinates for which only operations are
given and no laws: words of 64 bits, or pairs of elements in words. The source is not in /repo; modelled are `models/short_weierstrass/group.rs`, `affine.rs` and `mod.rs` and `scalar_mul/glv.rs` of ark-ec 0.5 and
`curves/g1.rs` and `g2.rs` of ark-bls12-381. Points are computed with at src/data_structures.rs:181-243 and 336-387 and in src/generator.rs:45-117.

Simplified: `into_affine` unwraps an inverse. Where there is none the model gives the point at infinity; C128 proves that there always is one.
-/

namespace GS.Tower

section
variable {R : Type} [Ops R] [DecidableEq R]

/-- `Affine::identity`, src/data_structures.rs:257-278. -/
def identityW : Affine R := ⟨0, 0, true⟩

/-- `Projective::zero`. src/generator.rs:57-58. -/
def zeroW : Projective R := ⟨1, 1, 0⟩

/-- `into_group`, src/data_structures.rs:208-209, 337-338 and 382-383. -/
def intoGroupW (P : Affine R) : Projective R := if P.infinity then zeroW else ⟨P.x, P.y, 1⟩

/-- `into_affine` and `into`, src/data_structures.rs:187-188, 208-209, 341 and 386 and src/generator.rs:104-116. -/
def intoAffineW (P : Projective R) : Affine R :=
  if P.z = 0 then identityW
  else if P.z = 1 then ⟨P.x, P.y, false⟩
  else
    match inverse P.z with
    | none => identityW
    | some zinv =>
      let zinv_squared := square zinv
      let x := P.x * zinv_squared
      let y := P.y * (zinv_squared * zinv)
      ⟨x, y, false⟩

/-- `double_in_place`, for curves with `a = 0` over fields of degree 1 or 2; called by the additions and multiplications of src/data_structures.rs:181-243 and 336-387. -/
def doubleW (P : Projective R) : Projective R :=
  if P.z = 0 then P
  else
    let a := square P.x
    let b := square P.y
    let c := square b
    let d := double (double (P.x * b))
    let e := a + double a
    let z := double (P.z * P.y)
    let x := square e - double d
    let y := (d - x) * e - double (double (double c))
    ⟨x, y, z⟩

/-- `+=` of a point in affine coordinates; called by `+` at src/data_structures.rs:187-188 and 197-198. -/
def addAffineW (P : Projective R) (Q : Affine R) : Projective R :=
  if Q.infinity then P
  else if P.z = 0 then ⟨Q.x, Q.y, 1⟩
  else
    let z1z1 := square P.z
    let u2 := Q.x * z1z1
    let s2 := P.z * Q.y * z1z1
    if P.x = u2 ∧ P.y = s2 then doubleW P
    else
      let h := u2 - P.x
      let hh := square h
      let i := double (double hh)
      let j := -h * i
      let r := double (s2 - P.y)
      let v := P.x * i
      let x := square r + j - double v
      let y := sop2 r (double P.y) (v - x) j
      let z := double (P.z * h)
      ⟨x, y, z⟩

/-- `+=`; called by `-` at src/generator.rs:57-58 and 74-75 and by the multiplications of src/data_structures.rs:336-387 and src/generator.rs:95-98. -/
def addW (P Q : Projective R) : Projective R :=
  if P.z = 0 then Q
  else if Q.z = 0 then P
  else
    let z1z1 := square P.z
    let z2z2 := square Q.z
    let u1 := P.x * z2z2
    let u2 := Q.x * z1z1
    let s1 := P.y * Q.z * z2z2
    let s2 := Q.y * P.z * z1z1
    if u1 = u2 ∧ s1 = s2 then doubleW P
    else
      let h := u2 - u1
      let i := square (double h)
      let j := -(h * i)
      let r := double (s2 - s1)
      let v := u1 * i
      let x := square r + j - double v
      let y := sop2 r (double s1) (v - x) j
      let z := double (P.z * Q.z) * h
      ⟨x, y, z⟩

/-- Unary `-`, src/data_structures.rs:208-209. -/
def negW (P : Projective R) : Projective R := ⟨P.x, -P.y, P.z⟩

/-- `-`, src/generator.rs:57-58 and 74-75. -/
def subW (P Q : Projective R) : Projective R := addW P (negW Q)

/-- `==`. A point in affine coordinates is converted first. src/data_structures.rs:128-134 (deserialization, which tests for the subgroups). -/
def sameW (P Q : Projective R) : Bool :=
  if P.z = 0 then decide (Q.z = 0)
  else if Q.z = 0 then false
  else
    let z1z1 := square P.z
    let z2z2 := square Q.z
    if P.x * z2z2 ≠ Q.x * z1z1 then false else decide (P.y * (z2z2 * Q.z) = Q.y * (z1z1 * P.z))

/-- `sw_double_and_add_projective`: from the highest bit that is set. For the multiplications of src/data_structures.rs:381-387 and src/generator.rs:95-98. -/
def mulNatW (P : Projective R) (n : Nat) : Projective R :=
  n.bits.reverse.foldl (fun res b => if b then addW (doubleW res) P else doubleW res) zeroW

/-- `sw_double_and_add_affine`: the same, from affine coordinates. For the tests of the subgroups, src/data_structures.rs:128-134 (deserialization). -/
def mulNatAffineW (P : Affine R) (n : Nat) : Projective R :=
  n.bits.reverse.foldl (fun res b => if b then addAffineW (doubleW res) P else doubleW res) zeroW

/-- The loop of `GLVConfig::glv_mul_projective`. For the multiplications of src/data_structures.rs:336-342. -/
def glvLoopW (b1 b2 b1b2 : Projective R) (res : Projective R) (skip : Bool) : List (Bool × Bool) → Projective R
  | [] => res
  | (false, false) :: l => if skip then glvLoopW b1 b2 b1b2 res false l else glvLoopW b1 b2 b1b2 (doubleW res) skip l
  | (true, false) :: l => glvLoopW b1 b2 b1b2 (addW (doubleW res) b1) skip l
  | (false, true) :: l => glvLoopW b1 b2 b1b2 (addW (doubleW res) b2) skip l
  | (true, true) :: l => glvLoopW b1 b2 b1b2 (addW (doubleW res) b1b2) skip l

/-- `GLVConfig::endomorphism`, with the constant `beta` in words. For the multiplications of src/data_structures.rs:336-342. -/
def endoW (beta : R) (P : Projective R) : Projective R := ⟨P.x * beta, P.y, P.z⟩

/-- `GLVConfig::glv_mul_projective`. The scalar is split as in `Verif/Model/Coord.lean`. For the multiplications of src/data_structures.rs:336-342. -/
def glvMulW (beta : R) (P : Projective R) (k : Nat) : Projective R :=
  let (k1, k2) := glvSplit k
  let b1 := if 0 < k1 then P else negW P
  let b2 := if 0 < k2 then endoW beta P else negW (endoW beta P)
  glvLoopW b1 b2 (addW b1 b2) zeroW true ((bits256 (k1.natAbs % r381)).zip (bits256 (k2.natAbs % r381)))

/-- `is_in_correct_subgroup_assuming_on_curve` of the first group. For the points of tests/prover.rs:6. -/
def testG1W (beta : R) (P : Affine R) : Bool :=
  let x_times_p := mulNatAffineW P blsX
  if sameW x_times_p (intoGroupW P) && !P.infinity then false
  else
    let minus_x_squared_times_p := negW (glvMulW beta x_times_p blsX)
    let endomorphism_p : Affine R := ⟨P.x * beta, P.y, P.infinity⟩
    sameW minus_x_squared_times_p (intoGroupW endomorphism_p)

/-- `is_in_correct_subgroup_assuming_on_curve` of the second group, with the constants of `p_power_endomorphism`. For the points of tests/prover.rs:6. -/
def testG2W (c0 c1 : Fp2 R) (P : Affine (Fp2 R)) : Bool :=
  let x_times_point := negW (mulNatAffineW P blsX)
  let frob := fun a : Fp2 R => (⟨a.c0, -a.c1⟩ : Fp2 R)
  let p_times_point : Affine (Fp2 R) := ⟨frob P.x * c0, frob P.y * c1, P.infinity⟩
  sameW x_times_point (intoGroupW p_times_point)

/-- Multiplication by doubling and adding: the default of ark-ec. For the multiplications of src/data_structures.rs:336-342 and 381-387. -/
@[reducible] def doubleAndAddW (r : Nat) (R : Type) [Ops R] [DecidableEq R] : MulProjective (ZMod r) R := ⟨fun P a => mulNatW P a.val⟩

/-- Multiplication by the method of Gallant, Lambert and Vanstone, in the first group of BLS12-381. For the multiplications of src/data_structures.rs:336-342. -/
@[reducible] def glvMethodW (beta : R) : MulProjective (ZMod r381) R := ⟨fun P a => glvMulW beta P a.val⟩

/-- `(P + Q).into()`, src/data_structures.rs:187-188. -/
instance : Add (Affine R) := ⟨fun P Q => intoAffineW (addAffineW (intoGroupW P) Q)⟩

/-- `(-(P.into_group())).into()`, src/data_structures.rs:208-209. -/
instance : Neg (Affine R) := ⟨fun P => intoAffineW (negW (intoGroupW P))⟩

/-- `zero`, src/data_structures.rs:257-278. -/
instance : Zero (Affine R) := ⟨identityW⟩

/-- `into_group`, `*=` and `into_affine`, src/data_structures.rs:336-342 and 381-387. -/
instance {F : Type} [MulProjective F R] : SMul F (Affine R) := ⟨fun a P => intoAffineW (MulProjective.mul (intoGroupW P) a)⟩

end

/-! ## CRS generation -/

section
variable {F R1 R2 RT : Type} [Ops R1] [DecidableEq R1] [Ops R2] [DecidableEq R2] [MulProjective F R1] [MulProjective F R2]

/-- `generate_crs`, src/generator.rs:80-119, with `prepare_real_binding_key`, src/generator.rs:45-60. Generators are drawn in Jacobian coordinates, and `pair` may panic. -/
def generateW {ρ : Type} [Rng ρ F (Projective R1) (Projective R2)] (pair : Affine R1 → Affine R2 → Option RT) (rng : ρ) : Option (CRS (Affine R1) (Affine R2) RT × ρ) :=
  let (p1, rng) := Rng.randG1 F (Projective R2) rng
  let (p2, rng) := Rng.randG2 F (Projective R1) rng
  let ((a1 : F), rng) := Rng.randF (Projective R1) (Projective R2) rng
  let ((a2 : F), rng) := Rng.randF (Projective R1) (Projective R2) rng
  let ((t1 : F), rng) := Rng.randF (Projective R1) (Projective R2) rng
  let ((t2 : F), rng) := Rng.randF (Projective R1) (Projective R2) rng
  let q1 : Projective R1 := MulProjective.mul p1 a1
  let q2 : Projective R2 := MulProjective.mul p2 a2
  let u1 : Projective R1 := MulProjective.mul p1 t1
  let u2 : Projective R2 := MulProjective.mul p2 t2
  let v1 := subW (MulProjective.mul q1 t1) zeroW
  let v2 := subW (MulProjective.mul q2 t2) zeroW
  let u11 : Com (Affine R1) := ⟨intoAffineW p1, intoAffineW q1⟩
  let u12 : Com (Affine R1) := ⟨intoAffineW u1, intoAffineW v1⟩
  let u21 : Com (Affine R2) := ⟨intoAffineW p2, intoAffineW q2⟩
  let u22 : Com (Affine R2) := ⟨intoAffineW u2, intoAffineW v2⟩
  (pair (intoAffineW p1) (intoAffineW p2)).map fun gt_gen =>
    ({ u := [u11, u12], v := [u21, u22], g1_gen := intoAffineW p1, g2_gen := intoAffineW p2, gt_gen := gt_gen }, rng)

end

/-! ## The target group -/

section
variable (R : Type) [Ops R] [DecidableEq R]

/-- `PairingOutput`: an element of the target field, written additively. src/data_structures.rs:136-142. -/
def OutputW := Fp12 R

/-- `+=` multiplies, src/data_structures.rs:399-411. -/
instance : Add (OutputW R) := ⟨fun a b => (show Fp12 R from a) * (show Fp12 R from b)⟩

/-- `zero`, src/data_structures.rs:412-421. -/
instance : Zero (OutputW R) := ⟨(1 : Fp12 R)⟩

/-- `==`, src/data_structures.rs:391-396. -/
instance : DecidableEq (OutputW R) := inferInstanceAs (DecidableEq (Fp12 R))

end

end GS.Tower
