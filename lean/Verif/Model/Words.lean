import Mathlib.Data.Nat.Size
import Verif.Model.Serialize

/-!
# Prime fields on words of 64 bits

Arithmetic of the scalar field and of the coordinates, as ark-ff 0.5 computes it: numbers are arrays of words, elements are in Montgomery form. The source of this dependency (Cargo.toml:16) is
not part of /repo; function names of `ark_ff::biginteger`, `ark_ff::biginteger::arithmetic` and `ark_ff::fields::models::fp::montgomery_backend` are given at each definition. /repo relies on it wherever it
computes with `E::ScalarField` or with elements of the groups (src/data_structures.rs:72-330, src/prover/commit.rs:85-215, src/verifier.rs:23-157).

Arrays are lists, lowest word first, and a word is a number below `2 ^ 64`. A loop over an array is a recursion over the list. Where the source uses `|` for words that have no bit in common this is `+`.
The source as it is without the feature `asm`, for moduli with a spare bit (`MODULUS_HAS_SPARE_BIT`) for which `CAN_USE_NO_CARRY_MUL_OPT` holds, as both moduli of BLS12-381 are.
-/

namespace GS.Words

/-- The number of values of a word, `u64`. -/
def B64 : Nat := 2 ^ 64

/-- The number that an array of words stands for, `BigInt`. -/
def val : List Nat → Nat
  | [] => 0
  | x :: xs => x + B64 * val xs

/-- The array with the given number of words that stands for a number, `BigInt::from`. -/
def ofNat : Nat → Nat → List Nat
  | 0, _ => []
  | n + 1, x => x % B64 :: ofNat n (x / B64)

/-- `adc`: a sum of two words and a carry; the word and the next carry. -/
def adc (a b carry : Nat) : Nat × Nat := ((a + b + carry) % B64, (a + b + carry) / B64)

/-- `sbb`: a difference; the word and the next borrow. -/
def sbb (a b borrow : Nat) : Nat × Nat := ((B64 + a - b - borrow) % B64, if (B64 + a - b - borrow) / B64 = 0 then 1 else 0)

/-- `mac_with_carry`, and `mac` for carry 0: `a + b * c + carry` as a word and a carry. -/
def mac (a b c carry : Nat) : Nat × Nat := ((a + b * c + carry) % B64, (a + b * c + carry) / B64)

/-- `BigInt::add_with_carry`. -/
def addCarry : List Nat → List Nat → Nat → List Nat × Nat
  | a :: as, b :: bs, c => let r := adc a b c; let t := addCarry as bs r.2; (r.1 :: t.1, t.2)
  | _, _, c => ([], c)

/-- `BigInt::sub_with_borrow`. -/
def subBorrow : List Nat → List Nat → Nat → List Nat × Nat
  | a :: as, b :: bs, c => let r := sbb a b c; let t := subBorrow as bs r.2; (r.1 :: t.1, t.2)
  | _, _, c => ([], c)

/-- `BigInt::cmp`, from the highest word. -/
def cmp : List Nat → List Nat → Ordering
  | a :: as, b :: bs => (cmp as bs).then (compare a b)
  | _, _ => .eq

/-- `BigInt::mul2`. -/
def mul2 : List Nat → Nat → List Nat
  | [], _ => []
  | a :: as, last => ((a * 2) % B64 + last) :: mul2 as (a / 2 ^ 63)

/-- `BigInt::div2`, from the highest word; also the bit that goes to the next lower word. -/
def div2 : List Nat → List Nat × Nat
  | [] => ([], 0)
  | a :: as => let t := div2 as; ((a / 2 + t.2) :: t.1, a % 2 * 2 ^ 63)

/-- `BigInt::is_even`. -/
def isEven (a : List Nat) : Bool := a.headD 0 % 2 == 0

/-- `Fp::is_zero`, `BigInt::is_zero`. -/
def isZero (a : List Nat) : Bool := a.all (· == 0)

/-- `Fp::is_geq_modulus`, `Fp::subtract_modulus`. -/
def subtractModulus (p a : List Nat) : List Nat := if cmp a p = .lt then a else (subBorrow a p 0).1

/-- `MontConfig::add_assign`. -/
def add (p a b : List Nat) : List Nat := subtractModulus p (addCarry a b 0).1

/-- `MontConfig::sub_assign`. -/
def sub (p a b : List Nat) : List Nat := (subBorrow (if cmp b a = .gt then (addCarry a p 0).1 else a) b 0).1

/-- `MontConfig::neg_in_place`. -/
def neg (p a : List Nat) : List Nat := if isZero a then a else (subBorrow p a 0).1

/-- `MontConfig::double_in_place`. -/
def double (p a : List Nat) : List Nat := subtractModulus p (mul2 a 0)

/-- `montgomery_backend::inv`: the negative of the inverse of the lowest word of the modulus. -/
def inv (p0 : Nat) : Nat := (B64 - Nat.repeat (fun x => x * x % B64 * p0 % B64) 63 1) % B64

/-- The inner loop of `mul_assign`: the rest of `r + a * b + k * p`, shifted by a word. The sum of the last carries must not overflow. -/
def mulInner (b k : Nat) : List Nat → List Nat → List Nat → Nat → Nat → Option (List Nat)
  | r :: rs, a :: as, p :: ps, carry1, carry2 =>
    let s := mac r a b carry1
    let t := mac s.1 k p carry2
    (mulInner b k rs as ps s.2 t.2).map (t.1 :: ·)
  | _, _, _, carry1, carry2 => if carry1 + carry2 < B64 then some [carry1 + carry2] else none

/-- The outer loop of `mul_assign`, for a word `b` of the second factor. -/
def mulRow (p a r : List Nat) (b : Nat) : Option (List Nat) :=
  match r, a, p with
  | r0 :: rs, a0 :: as, p0 :: ps =>
    let s := mac r0 a0 b 0
    let k := s.1 * inv p0 % B64
    mulInner b k rs as ps s.2 (mac s.1 k p0 0).2
  | _, _, _ => none

/-- `MontConfig::mul_assign`. -/
def mul (p a b : List Nat) : Option (List Nat) := (b.foldlM (mulRow p a) (List.replicate p.length 0)).map (subtractModulus p)

/-- A row of products: `r[j] = mac_with_carry(r[j], a[j], b, &mut carry)` for all `j` of `a`; the words, the words of `r` beyond, and the carry. -/
def macRow (b : Nat) : List Nat → List Nat → Nat → List Nat × List Nat × Nat
  | r :: rs, a :: as, carry => let s := mac r a b carry; let t := macRow b rs as s.2; (s.1 :: t.1, t.2.1, t.2.2)
  | rs, _, carry => ([], rs, carry)

/-- The first loop of `square_in_place`, from `r[2 * i]` on, for the words of `a` from `i` on: the products of different words. -/
def squareOff : List Nat → List Nat → List Nat
  | a :: as, r0 :: r =>
    let t := macRow a r as 0
    -- `r.b1[i] = carry` (not for the last word, where nothing is added)
    let r := if as.isEmpty then r else t.1 ++ t.2.2 :: t.2.1.tail
    match r with
    | r1 :: r => r0 :: r1 :: squareOff as r
    | [] => [r0]
  | _, r => r

/-- The third loop of `square_in_place`, from `r[2 * i]` on: the squares of the words. -/
def squareDiag : List Nat → List Nat → Nat → List Nat
  | a :: as, r0 :: r1 :: r, carry =>
    let s := mac r0 a a carry
    let t := adc r1 0 s.2
    s.1 :: t.1 :: squareDiag as r t.2
  | _, r, _ => r

/-- A step of Montgomery reduction in `square_in_place`, on the words from `r[i]` on: the words from `r[i + 1]` on, and the carry into the next step. -/
def reduceStep (p r : List Nat) (carry2 : Nat) : Option (List Nat × Nat) :=
  match r, p with
  | r0 :: rs, p0 :: ps =>
    let k := r0 * inv p0 % B64
    let t := macRow k rs ps (mac r0 k p0 0).2
    match t.2.1 with
    | x :: xs => let u := adc x t.2.2 carry2; some (t.1 ++ u.1 :: xs, u.2)
    | [] => none
  | _, _ => none

/-- As many steps as there are words in the modulus. -/
def reduceSteps (p : List Nat) : Nat → List Nat → Nat → Option (List Nat)
  | 0, r, _ => some r
  | n + 1, r, carry2 => (reduceStep p r carry2).bind fun t => reduceSteps p n t.1 t.2

/-- `MontConfig::square_in_place`. The second loop shifts by one bit, here from the lowest word; there from the highest, each from the words before. -/
def square (p a : List Nat) : Option (List Nat) :=
  if p.length = 1 then mul p a a
  else (reduceSteps p p.length (squareDiag a (mul2 (squareOff a (List.replicate (2 * p.length) 0)) 0) 0) 0).map (subtractModulus p)

/-- A step of `MontConfig::into_bigint`; the array is rotated, which is `% N` in the indices there. -/
def intoStep (p r : List Nat) : List Nat :=
  match r, p with
  | r0 :: rs, p0 :: ps =>
    let k := r0 * inv p0 % B64
    let t := macRow k rs ps (mac r0 k p0 0).2
    t.1 ++ [t.2.2]
  | r, _ => r

/-- `MontConfig::into_bigint`. -/
def intoBigint (p a : List Nat) : List Nat := Nat.repeat (intoStep p) p.length a

/-- The constant `R2`, the square of `2 ^ (64 * N)` modulo the modulus. -/
def R2 (p : List Nat) : List Nat := ofNat p.length (B64 ^ (2 * p.length) % val p)

/-- `MontConfig::from_bigint`. The outer result says whether a sum overflowed. -/
def fromBigint (p r : List Nat) : Option (Option (List Nat)) :=
  if isZero r then some (some r) else if cmp r p = .lt then (mul p r (R2 p)).map some else some none

/-- The loops `while u.is_even()` of `MontConfig::inverse`; the first argument bounds the number of rounds. -/
def halve (p : List Nat) : Nat → List Nat → List Nat → List Nat × List Nat
  | 0, u, b => (u, b)
  | n + 1, u, b => if isEven u then halve p n (div2 u).1 (div2 (if isEven b then b else (addCarry b p 0).1)).1 else (u, b)

/-- The outer loop of `MontConfig::inverse`; the first argument bounds the number of rounds. -/
def inverseLoop (p one : List Nat) : Nat → List Nat → List Nat → List Nat → List Nat → Option (List Nat)
  | 0, _, _, _, _ => none
  | n + 1, u, v, b, c =>
    if u ≠ one ∧ v ≠ one then
      let (u, b) := halve p (val u) u b
      let (v, c) := halve p (val v) v c
      if cmp v u = .lt then inverseLoop p one n (subBorrow u v 0).1 v (sub p b c) c else inverseLoop p one n u (subBorrow v u 0).1 b (sub p c b)
    else if u = one then some b else some c

/-- `MontConfig::inverse`. The outer result says whether the bound on the number of rounds, which the source does not have, was reached. -/
def inverse (p a : List Nat) : Option (Option (List Nat)) :=
  if isZero a then some none
  else (inverseLoop p (ofNat p.length 1) (val a + val p + 1) a p (R2 p) (List.replicate p.length 0)).map some

/-- The loop over the pairs in `sum_of_products`, for the word `j` of the first factors: the words and the two carries. -/
def sopPairs (j : Nat) : List (List Nat × List Nat) → List Nat → Nat → Nat → List Nat × Nat × Nat
  | [], r, ca, cb => (r, ca, cb)
  | (a, b) :: l, r, ca, cb =>
    let t := macRow (a.getD j 0) r b 0
    let u := adc ca cb t.2.2
    sopPairs j l t.1 u.1 u.2

/-- The loop over the words in `sum_of_products`. -/
def sopStep (p : List Nat) (l : List (List Nat × List Nat)) (r : List Nat) (j : Nat) : List Nat :=
  match sopPairs j l r 0 0, p with
  | (r0 :: rs, ca, cb), p0 :: ps =>
    let k := r0 * inv p0 % B64
    let t := macRow k rs ps (mac r0 k p0 0).2
    t.1 ++ [(adc ca cb t.2.2).1]
  | (r, _, _), _ => r

/-- `sum_of_products` for a chunk of pairs. -/
def sopChunk (p : List Nat) (l : List (List Nat × List Nat)) : List Nat :=
  subtractModulus p ((List.range p.length).foldl (sopStep p l) (List.replicate p.length 0))

/-- The sum over the chunks in `sum_of_products`, `Iterator::sum`. The second argument bounds the number of chunks. -/
def sopSum (p : List Nat) (m : Nat) : Nat → List (List Nat × List Nat) → List Nat → List Nat
  | 0, _, acc => acc
  | n + 1, l, acc => if l.isEmpty then acc else sopSum p m n (l.drop m) (add p acc (sopChunk p (l.take m)))

/-- `MontConfig::sum_of_products`. -/
def sumOfProducts (p : List Nat) (l : List (List Nat × List Nat)) : Option (List Nat) :=
  let spare := 64 * p.length - Nat.size (val p)
  let zero := List.replicate p.length 0
  if spare ≤ 1 then l.foldlM (fun acc t => (mul p t.1 t.2).map (add p acc)) zero else some (sopSum p (2 * spare - 1) l.length l zero)

/-- `BigInt::to_bytes_le`: the bytes of each word, lowest first. -/
def toBytes (a : List Nat) : Bytes := a.flatMap (leBytes 8)

/-- `BigInt::deserialize_uncompressed` from as many bytes as are needed: words of 8 bytes. -/
def fromBytes : Nat → Bytes → List Nat
  | 0, _ => []
  | n + 1, bs => leNat (bs.take 8) :: fromBytes n (bs.drop 8)

end GS.Words
