import Verif.Model.Coord

/-!
# The pairing of BLS12-381

`E::multi_pairing` and `E::pairing` for the curve of tests/prover.rs: the coefficients of the lines, the Miller loop and the final exponentiation. The source is
not in /repo; modelled are `models/bls12/mod.rs`, `models/bls12/g2.rs` and `pairing.rs` of ark-ec, with the constants of ark-bls12-381 and `mul_by_014` of ark-ff.

Simplified: the arithmetic of the fields is that of Mathlib, so that `square`, `cyclotomic_square`, `cyclotomic_exp` and `frobenius_map` are powers and
`mul_by_01` and `mul_by_1` are products with sparse elements (the formulas are in `Verif/Model/Tower.lean`). `none` stands for a panic.
-/

namespace GS
variable {K : Type} [Field K]

/-- `EllCoeff`. For the pairings of src/data_structures.rs:484-502. -/
abbrev EllCoeff (K : Type) [Field K] := Fq2 K × Fq2 K × Fq2 K

/-- `G2HomProjective`: homogeneous coordinates. For the pairings of src/data_structures.rs:484-502. -/
structure G2Hom (K : Type) [Field K] where
  x : Fq2 K
  y : Fq2 K
  z : Fq2 K

namespace G2Hom

/-- `double_in_place`: the double and the coefficients of the tangent, for a twist of type `M`. For the pairings of src/data_structures.rs:484-502. -/
def double (R : G2Hom K) : EllCoeff K × G2Hom K :=
  let a := (2⁻¹ : K) • (R.x * R.y)
  let b := R.y * R.y
  let c := R.z * R.z
  let e := ⟨4, 4⟩ * (c + c + c)
  let f := e + e + e
  let g := (2⁻¹ : K) • (b + f)
  let h := (R.y + R.z) * (R.y + R.z) - (b + c)
  let i := e - b
  let j := R.x * R.x
  let e_square := e * e
  ((i, j + j + j, -h), ⟨a * (b - f), g * g - (e_square + e_square + e_square), b * h⟩)

/-- `add_in_place`: the sum and the coefficients of the line, for a twist of type `M`. For the pairings of src/data_structures.rs:484-502. -/
def add (R : G2Hom K) (qx qy : Fq2 K) : EllCoeff K × G2Hom K :=
  let theta := R.y - qy * R.z
  let lambda := R.x - qx * R.z
  let c := theta * theta
  let d := lambda * lambda
  let e := lambda * d
  let f := R.z * c
  let g := R.x * d
  let h := e + f - (g + g)
  let j := theta * qx - lambda * qy
  ((j, -theta, lambda), ⟨lambda * h, theta * (g - h) - e * R.y, R.z * e⟩)

end G2Hom

/-- `BitIteratorBE::new(X).skip(1)`; the highest of the 64 bits is set. For the pairings of src/data_structures.rs:484-502. -/
def loopBits : List Bool := blsX.bits.reverse.tail

/-- The loop of `G2Prepared::from`. For the pairings of src/data_structures.rs:484-502. -/
def lineCoeffs (qx qy : Fq2 K) : List Bool → G2Hom K → List (EllCoeff K)
  | [], _ => []
  | i :: l, R =>
    let (c, R) := R.double
    c :: if i then
      let (c', R) := R.add qx qy
      c' :: lineCoeffs qx qy l R
    else lineCoeffs qx qy l R

/-- `G2Prepared`. For the pairings of src/data_structures.rs:484-502. -/
structure G2Prepared (K : Type) [Field K] where
  ell_coeffs : List (EllCoeff K)
  infinity : Bool

/-- `G2Prepared::from`. For the pairings of src/data_structures.rs:484-502. -/
def prepare (Q : Affine (Fq2 K)) : G2Prepared K :=
  if Q.infinity then ⟨[], true⟩ else ⟨lineCoeffs Q.x Q.y loopBits ⟨Q.x, Q.y, 1⟩, false⟩

/-- `mul_by_014`. For the pairings of src/data_structures.rs:484-502. -/
noncomputable def mulBy014 (f : Fq12 K) (c0 c1 c4 : Fq2 K) : Fq12 K :=
  let a := f.re * mkFq6 (c0, c1, 0)
  let b := f.im * mkFq6 (0, c4, 0)
  let o := c1 + c4
  let im := (f.im + f.re) * mkFq6 (c0, o, 0) - a - b
  ⟨b * xiFq12 K + a, im⟩

/-- `ell`, for a twist of type `M`. For the pairings of src/data_structures.rs:484-502. -/
noncomputable def ell (f : Fq12 K) (c : EllCoeff K) (P : Affine K) : Option (Fq12 K) :=
  if P.infinity then none else some (mulBy014 f c.1 (P.x • c.2.1) (P.y • c.2.2))

/-- `for (p, coeffs) in pairs.iter_mut() { ell(&mut f, &coeffs.next().unwrap(), &p.0) }`. For the pairings of src/data_structures.rs:484-502. -/
noncomputable def ellAll : Fq12 K → List (Affine K × List (EllCoeff K)) → Option (Fq12 K × List (Affine K × List (EllCoeff K)))
  | f, [] => some (f, [])
  | _, (_, []) :: _ => none
  | f, (P, c :: cs) :: l => do
    let f ← ell f c P
    let (f, l) ← ellAll f l
    pure (f, (P, cs) :: l)

/-- The loop of `multi_miller_loop` for one chunk of pairs. For the pairings of src/data_structures.rs:484-502. -/
noncomputable def millerChunk : List Bool → Fq12 K → List (Affine K × List (EllCoeff K)) → Option (Fq12 K)
  | [], f, _ => some f
  | i :: l, f, pairs => do
    let (f, pairs) ← ellAll (f * f) pairs
    if i then
      let (f, pairs) ← ellAll f pairs
      millerChunk l f pairs
    else millerChunk l f pairs

/-- `cfg_chunks_mut!(pairs, 4)`. For the pairings of src/data_structures.rs:484-502. -/
def chunks4 {α : Type} : List α → List (List α)
  | [] => []
  | a :: b :: c :: d :: l => [a, b, c, d] :: chunks4 l
  | l => [l]

/-- `multi_miller_loop`: `zip_eq`, which panics if the lengths differ, pairs with a zero left out, chunks of four, and a conjugate because the parameter of the
curve is negative. For the pairings of src/data_structures.rs:484-502. -/
noncomputable def multiMillerLoop (a : List (Affine K)) (b : List (Affine (Fq2 K))) : Option (Fq12 K) :=
  if a.length ≠ b.length then none
  else do
    let pairs := (a.zip b).filterMap fun pq =>
      if !pq.1.infinity && !(prepare pq.2).infinity then some (pq.1, (prepare pq.2).ell_coeffs) else none
    let fs ← (chunks4 pairs).mapM (millerChunk loopBits 1)
    pure (star (fs.foldl (· * ·) 1))

/-- `exp_by_x`. For the pairings of src/data_structures.rs:484-502. -/
noncomputable def expByX (f : Fq12 K) : Fq12 K := star (f ^ blsX)

/-- `frobenius_map`. For the pairings of src/data_structures.rs:484-502. -/
noncomputable def frobeniusMap (f : Fq12 K) (power : Nat) : Fq12 K := f ^ p381 ^ power

variable [Fact (∀ r : K, r ^ 2 ≠ -1 + 0 * r)] [Fact (Irreducible (Polynomial.X ^ 3 - Polynomial.C (xiFq6 K)))]
  [Fact (∀ b : Fq6 K, b ^ 2 ≠ xiFq12 K + 0 * b)]

open scoped Classical in
/-- `final_exponentiation`. For the pairings of src/data_structures.rs:484-502. -/
noncomputable def finalExponentiation (f : Fq12 K) : Option (Fq12 K) :=
  let f1 := star f
  if f = 0 then none
  else
    let f2 := f⁻¹
    let r := f1 * f2
    let f2 := r
    let r := frobeniusMap r 2
    let r := r * f2
    let y0 := r * r
    let y1 := expByX r
    let y2 := star r
    let y1 := y1 * y2
    let y2 := expByX y1
    let y1 := star y1
    let y1 := y1 * y2
    let y2 := expByX y1
    let y1 := frobeniusMap y1 1
    let y1 := y1 * y2
    let r := r * y0
    let y0 := expByX y1
    let y2 := expByX y0
    let y0 := frobeniusMap y1 2
    let y1 := star y1
    let y1 := y1 * y2
    let y1 := y1 * y0
    let r := r * y1
    some r

/-- `E::multi_pairing`: `final_exponentiation(multi_miller_loop(a, b)).unwrap()`. src/data_structures.rs:484-502. -/
noncomputable def arkMultiPairing (a : List (Affine K)) (b : List (Affine (Fq2 K))) : Option (PairingOutput K) := do
  let f ← multiMillerLoop a b
  let r ← finalExponentiation f
  pure r

/-- `E::pairing`: `multi_pairing([p], [q])`. src/data_structures.rs:484-491 and src/generator.rs:116. -/
noncomputable def arkPairing (P : Affine K) (Q : Affine (Fq2 K)) : Option (PairingOutput K) := arkMultiPairing [P] [Q]

end GS
