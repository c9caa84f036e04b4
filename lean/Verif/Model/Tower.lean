import Mathlib.Data.Nat.Bits
import Verif.Model.Miller

/-!
# The tower of fields of BLS12-381, as it is computed

Elements of `Fq2`, `Fq6` and `Fq12` are pairs and triples, and ark-ff computes with them by formulas that save multiplications. In `Verif/Model/Bls381.lean`, `Verif/Model/Target.lean` and
`Verif/Model/Miller.lean` these fields are fields. The source is not in /repo; modelled are `fields/models/quadratic_extension.rs`, `cubic_extension.rs`, `fp2.rs`, `fp6_3over2.rs`, `fp12_2over3over2.rs` and
`fields/cyclotomic.rs` of ark-ff 0.5, `fields/fq2.rs`, `fq6.rs` and `fq12.rs` of ark-bls12-381, and `models/bls12/mod.rs` of ark-ec. The pairings of src/data_structures.rs:484-502 and src/generator.rs:116 compute with them.
Everything is generic in the type of the elements of the prime field, for which only operations are given and no laws.
-/

namespace GS.Tower

/-- `Field`: the operations that the formulas use. `sop2` is `sum_of_products` of two products. For the pairings of src/data_structures.rs:484-502. -/
class Ops (R : Type) extends Zero R, One R, Add R, Sub R, Mul R, Neg R where
  double : R → R
  square : R → R
  inverse : R → Option R
  sop2 : R → R → R → R → R

export Ops (double square inverse sop2)

/-- `Fp2`. For the pairings of src/data_structures.rs:484-502. -/
@[ext] structure Fp2 (R : Type) where
  c0 : R
  c1 : R

/-- `Fp6`. For the pairings of src/data_structures.rs:484-502. -/
@[ext] structure Fp6 (R : Type) where
  c0 : Fp2 R
  c1 : Fp2 R
  c2 : Fp2 R

/-- `Fp12`. For the pairings of src/data_structures.rs:484-502. -/
@[ext] structure Fp12 (R : Type) where
  c0 : Fp6 R
  c1 : Fp6 R

instance {R : Type} [DecidableEq R] : DecidableEq (Fp2 R) := fun a b =>
  if h : a.c0 = b.c0 ∧ a.c1 = b.c1 then .isTrue (by cases a; cases b; simp_all) else .isFalse fun e => h (by rw [e]; exact ⟨rfl, rfl⟩)

instance {R : Type} [DecidableEq R] : DecidableEq (Fp6 R) := fun a b =>
  if h : a.c0 = b.c0 ∧ a.c1 = b.c1 ∧ a.c2 = b.c2 then .isTrue (by cases a; cases b; simp_all) else .isFalse fun e => h (by rw [e]; exact ⟨rfl, rfl, rfl⟩)

instance {R : Type} [DecidableEq R] : DecidableEq (Fp12 R) := fun a b =>
  if h : a.c0 = b.c0 ∧ a.c1 = b.c1 then .isTrue (by cases a; cases b; simp_all) else .isFalse fun e => h (by rw [e]; exact ⟨rfl, rfl⟩)

section
variable {R : Type} [Ops R]

/-- `QuadExtField` over the prime field, with the non-residue -1: products by `sum_of_products`, squares by the formula for -1, inverses by the norm. For the pairings of src/data_structures.rs:484-502. -/
instance : Ops (Fp2 R) where
  zero := ⟨0, 0⟩
  one := ⟨1, 0⟩
  add a b := ⟨a.c0 + b.c0, a.c1 + b.c1⟩
  sub a b := ⟨a.c0 - b.c0, a.c1 - b.c1⟩
  neg a := ⟨-a.c0, -a.c1⟩
  mul a b := ⟨sop2 a.c0 (-a.c1) b.c0 b.c1, sop2 a.c0 a.c1 b.c1 b.c0⟩
  double a := ⟨double a.c0, double a.c1⟩
  square a :=
    let c0 := a.c0 - a.c1
    let c1 := double a.c1
    ⟨c0 * (c0 + c1), c1 * a.c0⟩
  inverse a :=
    let v1 := square a.c1
    let v0 := square a.c0 - -v1
    (inverse v0).map fun v1 => ⟨a.c0 * v1, -(a.c1 * v1)⟩
  sop2 a b c d :=
    let mul := fun (a b : Fp2 R) => (⟨sop2 a.c0 (-a.c1) b.c0 b.c1, sop2 a.c0 a.c1 b.c1 b.c0⟩ : Fp2 R)
    let x := mul a c
    let y := mul b d
    ⟨0 + x.c0 + y.c0, 0 + x.c1 + y.c1⟩

/-- `mul_fp2_by_nonresidue_in_place` of `Fq6Config`: times `1 + u`. For the pairings of src/data_structures.rs:484-502. -/
def mulXi (a : Fp2 R) : Fp2 R := ⟨a.c0 - a.c1, a.c1 + a.c0⟩

/-- `CubicExtField::mul_assign`. For the pairings of src/data_structures.rs:484-502. -/
def mul6 (self other : Fp6 R) : Fp6 R :=
  let a := other.c0
  let b := other.c1
  let c := other.c2
  let d := self.c0
  let e := self.c1
  let f := self.c2
  let ad := d * a
  let be := e * b
  let cf := f * c
  let x := (e + f) * (b + c) - be - cf
  let y := (d + e) * (a + b) - ad - be
  let z := (d + f) * (a + c) - ad + be - cf
  ⟨mulXi x + ad, mulXi cf + y, z⟩

/-- `CubicExtField::square_in_place`. For the pairings of src/data_structures.rs:484-502. -/
def square6 (self : Fp6 R) : Fp6 R :=
  let a := self.c0
  let b := self.c1
  let c := self.c2
  let s0 := square a
  let ab := a * b
  let s1 := double ab
  let s2 := square (a - b + c)
  let bc := b * c
  let s3 := double bc
  let s4 := square c
  ⟨mulXi s3 + s0, mulXi s4 + s1, s1 + s2 + s3 - s0 - s4⟩

/-- `CubicExtField::inverse`. For the pairings of src/data_structures.rs:484-502. -/
def inverse6 [DecidableEq R] (self : Fp6 R) : Option (Fp6 R) :=
  if self = ⟨0, 0, 0⟩ then none
  else
    let t0 := square self.c0
    let t1 := square self.c1
    let t2 := square self.c2
    let t3 := self.c0 * self.c1
    let t4 := self.c0 * self.c2
    let t5 := self.c1 * self.c2
    let n5 := mulXi t5
    let s0 := t0 - n5
    let s1 := mulXi t2 - t3
    let s2 := t1 - t4
    let a1 := self.c2 * s1
    let a2 := self.c1 * s2
    let a3 := mulXi (a1 + a2)
    -- `.inverse().unwrap()`: there is an inverse, since the element is not 0
    (inverse (self.c0 * s0 + a3)).map fun t6 => ⟨t6 * s0, t6 * s1, t6 * s2⟩

end

section
variable {R : Type} [Ops R] [DecidableEq R]

/-- `CubicExtField` over `Fp2`. For the pairings of src/data_structures.rs:484-502. -/
instance : Ops (Fp6 R) where
  zero := ⟨0, 0, 0⟩
  one := ⟨1, 0, 0⟩
  add a b := ⟨a.c0 + b.c0, a.c1 + b.c1, a.c2 + b.c2⟩
  sub a b := ⟨a.c0 - b.c0, a.c1 - b.c1, a.c2 - b.c2⟩
  neg a := ⟨-a.c0, -a.c1, -a.c2⟩
  mul := mul6
  double a := ⟨double a.c0, double a.c1, double a.c2⟩
  square := square6
  inverse := inverse6
  sop2 a b c d :=
    let x := mul6 a c
    let y := mul6 b d
    ⟨0 + x.c0 + y.c0, 0 + x.c1 + y.c1, 0 + x.c2 + y.c2⟩

/-- `mul_fp6_by_nonresidue_in_place` of `Fq12Config`: times `v`. For the pairings of src/data_structures.rs:484-502. -/
def mulV (a : Fp6 R) : Fp6 R := ⟨mulXi a.c2, a.c0, a.c1⟩

/-- `QuadExtField::mul_assign` over `Fp6`, after Karatsuba. For the pairings of src/data_structures.rs:484-502. -/
def mul12 (self other : Fp12 R) : Fp12 R :=
  let v0 := self.c0 * other.c0
  let v1 := self.c1 * other.c1
  let c1 := (self.c1 + self.c0) * (other.c0 + other.c1) - v0 - v1
  ⟨mulV v1 + v0, c1⟩

/-- `QuadExtField::square_in_place` over `Fp6`, complex squaring. For the pairings of src/data_structures.rs:484-502. -/
def square12 (self : Fp12 R) : Fp12 R :=
  let v0 := self.c0 - self.c1
  let v3 := self.c0 - mulV self.c1
  let v2 := self.c0 * self.c1
  let v0 := v0 * v3 + v2
  ⟨mulV v2 + v0, double v2⟩

/-- `QuadExtField::inverse` over `Fp6`. For the pairings of src/data_structures.rs:484-502. -/
def inverse12 (self : Fp12 R) : Option (Fp12 R) :=
  if self = ⟨0, 0⟩ then none
  else
    let v1 := square self.c1
    let v0 := square self.c0 - mulV v1
    (inverse v0).map fun v1 => ⟨self.c0 * v1, -(self.c1 * v1)⟩

/-- `QuadExtField` over `Fp6`. For the pairings of src/data_structures.rs:484-502. -/
instance : Ops (Fp12 R) where
  zero := ⟨0, 0⟩
  one := ⟨1, 0⟩
  add a b := ⟨a.c0 + b.c0, a.c1 + b.c1⟩
  sub a b := ⟨a.c0 - b.c0, a.c1 - b.c1⟩
  neg a := ⟨-a.c0, -a.c1⟩
  mul := mul12
  double a := ⟨double a.c0, double a.c1⟩
  square := square12
  inverse := inverse12
  sop2 a b c d :=
    let x := mul12 a c
    let y := mul12 b d
    ⟨0 + x.c0 + y.c0, 0 + x.c1 + y.c1⟩

/-- `Fp6::mul_by_01`. For the pairings of src/data_structures.rs:484-502. -/
def mulBy01 (self : Fp6 R) (c0 c1 : Fp2 R) : Fp6 R :=
  let a_a := self.c0 * c0
  let b_b := self.c1 * c1
  let t1 := mulXi (c1 * (self.c1 + self.c2) - b_b) + a_a
  let t3 := c0 * (self.c0 + self.c2) - a_a + b_b
  let t2 := (c0 + c1) * (self.c0 + self.c1) - a_a - b_b
  ⟨t1, t2, t3⟩

/-- `Fp6::mul_by_1`. For the pairings of src/data_structures.rs:484-502. -/
def mulBy1 (self : Fp6 R) (c1 : Fp2 R) : Fp6 R :=
  let b_b := self.c1 * c1
  let t1 := mulXi (c1 * (self.c1 + self.c2) - b_b)
  let t2 := c1 * (self.c0 + self.c1) - b_b
  ⟨t1, t2, b_b⟩

/-- `Fp12::mul_by_014`. For the pairings of src/data_structures.rs:484-502. -/
def mulBy014 (self : Fp12 R) (c0 c1 c4 : Fp2 R) : Fp12 R :=
  let a := mulBy01 self.c0 c0 c1
  let b := mulBy1 self.c1 c4
  let o := c1 + c4
  let c1 := mulBy01 (self.c1 + self.c0) c0 o - a - b
  ⟨mulV b + a, c1⟩

/-- `conjugate_in_place`, and `cyclotomic_inverse_in_place` for elements other than 0. For the pairings of src/data_structures.rs:484-502. -/
def conj (a : Fp12 R) : Fp12 R := ⟨a.c0, -a.c1⟩

/-- The lines of `cyclotomic_square_in_place` for two coefficients: `(z0 + z1 y)²` with `y² = 1 + u`. For the pairings of src/data_structures.rs:484-502. -/
def squareFp4 (r0 r1 : Fp2 R) : Fp2 R × Fp2 R :=
  let tmp := r0 * r1
  ((r0 + r1) * (mulXi r1 + r0) - tmp - mulXi tmp, double tmp)

/-- `cyclotomic_square_in_place` of `Fp12`, after Granger and Scott; the square of the characteristic is 1 modulo 6. For the pairings of src/data_structures.rs:484-502. -/
def cyclotomicSquare (self : Fp12 R) : Fp12 R :=
  let r0 := self.c0.c0
  let r4 := self.c0.c1
  let r3 := self.c0.c2
  let r2 := self.c1.c0
  let r1 := self.c1.c1
  let r5 := self.c1.c2
  let t01 := squareFp4 r0 r1
  let t23 := squareFp4 r2 r3
  let t45 := squareFp4 r4 r5
  let z0 := double (t01.1 - r0) + t01.1
  let z1 := double (t01.2 + r1) + t01.2
  let tmp := mulXi t45.2
  let z2 := double (r2 + tmp) + tmp
  let z3 := double (t45.1 - r3) + t45.1
  let z4 := double (t23.1 - r4) + t23.1
  let z5 := double (r5 + t23.2) + t23.2
  ⟨⟨z0, z4, z3⟩, ⟨z2, z1, z5⟩⟩

/-- `find_naf`, lowest digit first; the first argument bounds the number of rounds. For the pairings of src/data_structures.rs:484-502. -/
def findNaf : Nat → Nat → List Int
  | 0, _ => []
  | f + 1, n =>
    if n = 0 then []
    else if n % 2 = 1 then
      let z : Int := 2 - (n % 4 : Nat)
      z :: findNaf f (if 0 ≤ z then (n - z.toNat) / 2 else (n + (-z).toNat) / 2)
    else 0 :: findNaf f (n / 2)

/-- `exp_loop`. For the pairings of src/data_structures.rs:484-502. -/
def expLoop (f inv : Fp12 R) : List Int → Fp12 R → Bool → Fp12 R
  | [], res, _ => res
  | z :: l, res, found =>
    let res := if found then cyclotomicSquare res else res
    if z = 0 then expLoop f inv l res found
    else expLoop f inv l (if 0 < z then res * f else res * inv) true

/-- `cyclotomic_exp`. For the pairings of src/data_structures.rs:484-502. -/
def cyclotomicExp (f : Fp12 R) (e : Nat) : Fp12 R := if f = 0 then f else expLoop f (conj f) (findNaf (e + 1) e).reverse 1 false

/-- The tables `FROBENIUS_COEFF_*` at one power: `(1 + u) ^ ((q - 1) / 6)`, `(1 + u) ^ ((q - 1) / 3)` and `(1 + u) ^ (2 (q - 1) / 3)` for `q` the power of the characteristic, and whether `Fp2` is conjugated.
For the pairings of src/data_structures.rs:484-502. -/
structure FrobTable (R : Type) where
  c6 : Fp2 R
  c3 : Fp2 R
  c23 : Fp2 R
  odd : Bool

/-- `frobenius_map` of `Fp2`; the table is `[1, -1]`. For the pairings of src/data_structures.rs:484-502. -/
def frob2 (T : FrobTable R) (a : Fp2 R) : Fp2 R := ⟨a.c0, if T.odd then a.c1 * (-1) else a.c1 * 1⟩

/-- `frobenius_map` of `Fp6`. For the pairings of src/data_structures.rs:484-502. -/
def frob6 (T : FrobTable R) (a : Fp6 R) : Fp6 R := ⟨frob2 T a.c0, frob2 T a.c1 * T.c3, frob2 T a.c2 * T.c23⟩

/-- `frobenius_map` of `Fp12`. For the pairings of src/data_structures.rs:484-502. -/
def frob12 (T : FrobTable R) (a : Fp12 R) : Fp12 R :=
  let c1 := frob6 T a.c1
  ⟨frob6 T a.c0, ⟨c1.c0 * T.c6, c1.c1 * T.c6, c1.c2 * T.c6⟩⟩

/-- `exp_by_x`; the parameter is negative. For the pairings of src/data_structures.rs:484-502. -/
def expByX (x : Nat) (f : Fp12 R) : Fp12 R := conj (cyclotomicExp f x)

/-- `final_exponentiation` of BLS12 curves, with the tables for the first and the second power. For the pairings of src/data_structures.rs:484-502. -/
def finalExponentiation (x : Nat) (T1 T2 : FrobTable R) (f : Fp12 R) : Option (Fp12 R) :=
  let f1 := conj f
  (inverse f).map fun f2 =>
    let r := f1 * f2
    let f2 := r
    let r := frob12 T2 r
    let r := r * f2
    let y0 := cyclotomicSquare r
    let y1 := expByX x r
    let y2 := conj r
    let y1 := y1 * y2
    let y2 := expByX x y1
    let y1 := conj y1
    let y1 := y1 * y2
    let y2 := expByX x y1
    let y1 := frob12 T1 y1
    let y1 := y1 * y2
    let r := r * y0
    let y0 := expByX x y1
    let y2 := expByX x y0
    let y0 := frob12 T2 y1
    let y1 := conj y1
    let y1 := y1 * y2
    let y1 := y1 * y0
    r * y1

/-- `mul_assign_by_fp` of `Fp2`. For the pairings of src/data_structures.rs:484-502. -/
def mulByFp (a : Fp2 R) (e : R) : Fp2 R := ⟨a.c0 * e, a.c1 * e⟩

/-- `EllCoeff`. For the pairings of src/data_structures.rs:484-502. -/
abbrev Line (R : Type) := Fp2 R × Fp2 R × Fp2 R

/-- `G2HomProjective`. For the pairings of src/data_structures.rs:484-502. -/
structure Hom (R : Type) where
  x : Fp2 R
  y : Fp2 R
  z : Fp2 R

/-- `double_in_place`, for a twist of type `M`; `coeffB` is `COEFF_B`. For the pairings of src/data_structures.rs:484-502. -/
def Hom.double (coeffB : Fp2 R) (twoInv : R) (r : Hom R) : Line R × Hom R :=
  let a := mulByFp (r.x * r.y) twoInv
  let b := square r.y
  let c := square r.z
  let e := coeffB * (Ops.double c + c)
  let f := Ops.double e + e
  let g := mulByFp (b + f) twoInv
  let h := square (r.y + r.z) - (b + c)
  let i := e - b
  let j := square r.x
  let e_square := square e
  ((i, Ops.double j + j, -h), ⟨a * (b - f), square g - (Ops.double e_square + e_square), b * h⟩)

/-- `add_in_place`, for a twist of type `M`. For the pairings of src/data_structures.rs:484-502. -/
def Hom.add (r : Hom R) (qx qy : Fp2 R) : Line R × Hom R :=
  let theta := r.y - qy * r.z
  let lambda := r.x - qx * r.z
  let c := square theta
  let d := square lambda
  let e := lambda * d
  let f := r.z * c
  let g := r.x * d
  let h := e + f - Ops.double g
  let j := theta * qx - lambda * qy
  ((j, -theta, lambda), ⟨lambda * h, theta * (g - h) - e * r.y, r.z * e⟩)

/-- The loop of `G2Prepared::from`. For the pairings of src/data_structures.rs:484-502. -/
def lines (coeffB : Fp2 R) (twoInv : R) (qx qy : Fp2 R) : List Bool → Hom R → List (Line R)
  | [], _ => []
  | i :: l, r =>
    let (c, r) := r.double coeffB twoInv
    c :: if i then
      let (c', r) := r.add qx qy
      c' :: lines coeffB twoInv qx qy l r
    else lines coeffB twoInv qx qy l r

/-- `G2Prepared::from`: the lines, or `none` for infinity; `two_inv` is `one().double().inverse().unwrap()`, and the outer `none` its panic. For the pairings of src/data_structures.rs:484-502. -/
def prepare (coeffB : Fp2 R) (bits : List Bool) (Q : Affine (Fp2 R)) : Option (Option (List (Line R))) :=
  if Q.infinity then some none
  else (inverse (Ops.double (1 : R))).map fun twoInv => some (lines coeffB twoInv Q.x Q.y bits ⟨Q.x, Q.y, 1⟩)

/-- `ell`, for a twist of type `M`. For the pairings of src/data_structures.rs:484-502. -/
def ell (f : Fp12 R) (c : Line R) (P : Affine R) : Option (Fp12 R) :=
  if P.infinity then none else some (mulBy014 f c.1 (mulByFp c.2.1 P.x) (mulByFp c.2.2 P.y))

/-- `for (p, coeffs) in pairs.iter_mut() { ell(&mut f, &coeffs.next().unwrap(), &p.0) }`. For the pairings of src/data_structures.rs:484-502. -/
def ellAll : Fp12 R → List (Affine R × List (Line R)) → Option (Fp12 R × List (Affine R × List (Line R)))
  | f, [] => some (f, [])
  | _, (_, []) :: _ => none
  | f, (P, c :: cs) :: l => do
    let f ← ell f c P
    let (f, l) ← ellAll f l
    pure (f, (P, cs) :: l)

/-- The loop of `multi_miller_loop` for one chunk of pairs. For the pairings of src/data_structures.rs:484-502. -/
def millerChunk : List Bool → Fp12 R → List (Affine R × List (Line R)) → Option (Fp12 R)
  | [], f, _ => some f
  | i :: l, f, pairs => do
    let (f, pairs) ← ellAll (square f) pairs
    if i then
      let (f, pairs) ← ellAll f pairs
      millerChunk l f pairs
    else millerChunk l f pairs

/-- `multi_miller_loop`: `zip_eq` panics if the lengths differ, the second points are prepared (here before the zip), pairs with a zero are left out, and the result is conjugated.
For the pairings of src/data_structures.rs:484-502. -/
def multiMillerLoop (coeffB : Fp2 R) (bits : List Bool) (a : List (Affine R)) (b : List (Affine (Fp2 R))) : Option (Fp12 R) := do
  if a.length ≠ b.length then none
  else
    let qs ← b.mapM (prepare coeffB bits)
    let pairs := (a.zip qs).filterMap fun pq => if pq.1.infinity then none else pq.2.map fun l => (pq.1, l)
    let fs ← (chunks4 pairs).mapM (millerChunk bits 1)
    pure (conj (fs.foldl (· * ·) 1))

/-- `E::multi_pairing`. src/data_structures.rs:484-502. -/
def multiPairing (coeffB : Fp2 R) (T1 T2 : FrobTable R) (a : List (Affine R)) (b : List (Affine (Fp2 R))) : Option (Fp12 R) := do
  let f ← multiMillerLoop coeffB loopBits a b
  finalExponentiation blsX T1 T2 f

/-- `FROBENIUS_COEFF_FP12_C1`, `FROBENIUS_COEFF_FP6_C1` and `FROBENIUS_COEFF_FP6_C2` of ark-bls12-381 at 1. For the pairings of src/data_structures.rs:484-502. -/
def frobCoeffs1 : (Nat × Nat) × (Nat × Nat) × (Nat × Nat) :=
  ((3850754370037169011952147076051364057158807420970682438676050522613628423219637725072182697113062777891589506424760, 151655185184498381465642749684540099398075398968325446656007613510403227271200139370504932015952886146304766135027),
   (0, 4002409555221667392624310435006688643935503118305586438271171395842971157480381377015405980053539358417135540939436),
   (4002409555221667392624310435006688643935503118305586438271171395842971157480381377015405980053539358417135540939437, 0))

/-- `FROBENIUS_COEFF_FP12_C1`, `FROBENIUS_COEFF_FP6_C1` and `FROBENIUS_COEFF_FP6_C2` of ark-bls12-381 at 2. For the pairings of src/data_structures.rs:484-502. -/
def frobCoeffs2 : (Nat × Nat) × (Nat × Nat) × (Nat × Nat) :=
  ((793479390729215512621379701633421447060886740281060493010456487427281649075476305620758731620351, 0),
   (793479390729215512621379701633421447060886740281060493010456487427281649075476305620758731620350, 0),
   (4002409555221667392624310435006688643935503118305586438271171395842971157480381377015405980053539358417135540939436, 0))

/-- A table from numbers, given a way to make elements of numbers (`MontFp!`). For the pairings of src/data_structures.rs:484-502. -/
def tableOf (mk : Nat → R) (c : (Nat × Nat) × (Nat × Nat) × (Nat × Nat)) (odd : Bool) : FrobTable R :=
  ⟨⟨mk c.1.1, mk c.1.2⟩, ⟨mk c.2.1.1, mk c.2.1.2⟩, ⟨mk c.2.2.1, mk c.2.2.2⟩, odd⟩

end

end GS.Tower
