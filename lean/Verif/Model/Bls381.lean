import Verif.Model.Bls
import Mathlib.AlgebraicGeometry.EllipticCurve.Affine.Point
import Mathlib.Algebra.QuadraticAlgebra.Basic

/-!
# The curves of BLS12-381

The constants of ark-bls12-381, the tests for its subgroups, and the square roots and the order of its base fields, for which
`SWCurve` in `Verif/Model/Element.lean` has parameters. Like there, the source is not in /repo, and the published source of the crates is modelled
(`curves/g1.rs` and `curves/g2.rs` of ark-bls12-381, `fields/models/fp` and `fields/models/quadratic_extension.rs` of ark-ff).

Simplified: multiplication of a point by a number is repeated addition, with the addition of Mathlib. The code adds in Jacobian coordinates, whose formulas
for `a = 0` do not contain `b`: for coordinates that are not on the curve they add on the curve `y² = x³ + b'` with another `b'`. The method of
Gallant, Lambert and Vanstone, which the code uses in the first group, does not split numbers as small as those here.
-/

namespace GS
open WeierstrassCurve.Affine

/-- `Fq::MODULUS`, for the curve of tests/prover.rs:6. -/
def p381 : Nat := 0x1a0111ea397fe69a4b1ba7b6434bacd764774b84f38512bf6730d2a0f6b0f6241eabfffeb153ffffb9feffffffffaaab

/-- `Config::X`; the parameter of the curve is its negative. For the curve of tests/prover.rs:6. -/
def blsX : Nat := 0xd201000000010000

/-- `G1_GENERATOR_X`, for the curve of tests/prover.rs:6. -/
def g1x : Nat :=
  3685416753713387016781088315183077757961620795782546409894578378688607592378376318836054947676345821548104185464507

/-- `G1_GENERATOR_Y`, for the curve of tests/prover.rs:6. -/
def g1y : Nat :=
  1339506544944476473020471379941921221584933875938349620426543736416511423956333506472724655353366534992391756441569

/-- `G2_GENERATOR_X`, for the curve of tests/prover.rs:6. -/
def g2x : Nat × Nat :=
  (352701069587466618187139116011060144890029952792775240219908644239793785735715026873347600343865175952761926303160,
   3059144344244213709971259814753781636986470325476647558659373206291635324768958432433509563104347017837885763365758)

/-- `G2_GENERATOR_Y`, for the curve of tests/prover.rs:6. -/
def g2y : Nat × Nat :=
  (1985150602287291935568054521177171638300868978215655730859378665066344726373823718423869104263333984641494340347905,
   927553665492332455747201965776037880757740193453592970025027978793976877002675564980949289727957565575433344219582)

/-- `BETA`, for the curve of tests/prover.rs:6. -/
def beta1 : Nat := 793479390729215512621379701633421447060886740281060493010456487427281649075476305620758731620350

/-- `P_POWER_ENDOMORPHISM_COEFF_0`, the inverse of `(u + 1)^((p - 1) / 3)`. For the curve of tests/prover.rs:6. -/
def coeff0 : Nat × Nat :=
  (0, 4002409555221667392624310435006688643935503118305586438271171395842971157480381377015405980053539358417135540939437)

/-- `P_POWER_ENDOMORPHISM_COEFF_1`, the inverse of `(u + 1)^((p - 1) / 2)`. For the curve of tests/prover.rs:6. -/
def coeff1 : Nat × Nat :=
  (2973677408986561043442465346520108879172042883009249989176415018091420807192182638567116318576472649347015917690530,
   1028732146235106349975324479215795277384839936929757896155643118032610843298655225875571310552543014690878354869257)

/-- `COFACTOR` of the first group, for the curve of tests/prover.rs:6. -/
def cofactor1 : Nat := 0x396c8c005555e1568c00aaab0000aaab

/-- `COFACTOR` of the second group, for the curve of tests/prover.rs:6. -/
def cofactor2 : Nat :=
  305502333931268344200999753193121504214466019254188142667664032982267604182971884026507427359259977847832272839041616661285803823378372096355777062779109

/-- The curve `y² = x³ + b`, for the points of tests/prover.rs:6. -/
def cubic {K : Type} [Field K] (b : K) : WeierstrassCurve.Affine K := ⟨0, 0, 0, 0, b⟩

section
variable {K : Type} [Field K] [DecidableEq K]

/-- `PartialEq` of a point in Jacobian coordinates and one in affine coordinates that is not the identity, for the points of tests/prover.rs:6. -/
def sameAs {b : K} : (cubic b).Point → K → K → Bool
  | .zero, _, _ => false
  | .some x y _, x', y' => decide (x = x' ∧ y = y')

open scoped Classical in
/-- A test of a point that only adds: it is done on the curve `y² = x³ + b` on which the point is. The test fails for `(0, 0)`, of which the double has
no third coordinate. For the points of tests/prover.rs:6. -/
noncomputable def onOwn (test : ∀ b : K, K → K → (cubic b).Point → Bool) (P : Affine K) : Bool :=
  P.infinity || if h : (cubic (P.y * P.y - P.x * P.x * P.x)).Nonsingular P.x P.y then test _ P.x P.y (.some _ _ h) else false

/-- `is_in_correct_subgroup_assuming_on_curve` of the first group: `[-X²] P = (β x, y)`, but not if `[X] P = P`. For the points of
tests/prover.rs:6. -/
noncomputable def inG1 : Affine K → Bool := onOwn fun _ x y P =>
  let xP := blsX • P
  if sameAs xP x y then false else sameAs (-(blsX • xP)) (beta1 * x) y

/-- `Fp::sqrt` for `p ≡ 3 mod 4`. For the coordinates of the points of tests/prover.rs:6. -/
def sqrtFq (a : K) : Option K :=
  let s := a ^ ((p381 + 1) / 4)
  if s * s = a then some s else none

/-- `legendre().is_qr()`. For the coordinates of the points of tests/prover.rs:6. -/
def isQr (a : K) : Bool := decide (a ^ ((p381 - 1) / 2) = 1)

/-- `g1::Config`; `le` is the order of the base field. For the points of tests/prover.rs:6. -/
noncomputable def g1Curve (le : K → K → Bool) : SWCurve K where
  a := 0
  b := 4
  sqrt := sqrtFq
  le := le
  inSubgroup := inG1

/-- `Fq2`: `u² = -1`. For the coordinates of the points of tests/prover.rs:6. -/
abbrev Fq2 (K : Type) [Field K] := QuadraticAlgebra K (-1) 0

/-- An element of `Fq2`, for the constants of the curve of tests/prover.rs:6. -/
def toFq2 (a : Nat × Nat) : Fq2 K := ⟨a.1, a.2⟩

/-- What `QuadExtField::sqrt` takes the last root of, and expects there to be one. For the coordinates of the points of tests/prover.rs:6. -/
def deltaFq2 (a : Fq2 K) (alpha : K) : K :=
  let delta := (alpha + a.re) * 2⁻¹
  if isQr delta then delta else delta - alpha

/-- `QuadExtField::sqrt`. For the coordinates of the points of tests/prover.rs:6. -/
def sqrtFq2 (a : Fq2 K) : Option (Fq2 K) :=
  if a.im = 0 then
    if isQr a.re then (sqrtFq a.re).map fun c0 => ⟨c0, 0⟩ else (sqrtFq (a.re / -1)).map fun c1 => ⟨0, c1⟩
  else do
    let alpha ← sqrtFq (a.re * a.re + a.im * a.im)
    let c0 ← sqrtFq (deltaFq2 a alpha)
    let cand : Fq2 K := ⟨c0, a.im * 2⁻¹ * c0⁻¹⟩
    if cand * cand = a then some cand else none

/-- `Ord` of `Fp`: that of the numbers. For the coordinates of the points of tests/prover.rs:6. -/
def leFq (x y : ZMod p381) : Bool := decide (x.val ≤ y.val)

/-- `Ord` of `QuadExtField`. For the coordinates of the points of tests/prover.rs:6. -/
def leFq2 (le : K → K → Bool) (x y : Fq2 K) : Bool := if x.im = y.im then le x.re y.re else le x.im y.im

variable [Fact (∀ r : K, r ^ 2 ≠ -1 + 0 * r)]

/-- `is_in_correct_subgroup_assuming_on_curve` of the second group: `[-X] P` is the image of `P` under `p_power_endomorphism`. For the points of
tests/prover.rs:6. -/
noncomputable def inG2 : Affine (Fq2 K) → Bool := onOwn fun _ x y P =>
  sameAs (-(blsX • P)) (toFq2 coeff0 * star x) (toFq2 coeff1 * star y)

/-- `g2::Config`. For the points of tests/prover.rs:6. -/
noncomputable def g2Curve (le : K → K → Bool) : SWCurve (Fq2 K) where
  a := 0
  b := ⟨4, 4⟩
  sqrt := sqrtFq2
  le := leFq2 le
  inSubgroup := inG2

end
end GS
