import Verif.Lemmas.MillerBls
import Verif.Lemmas.Kron

/-! # The pairing of the generators, computed -/

open Polynomial

namespace GS

/-- Homogeneous coordinates, as pairs of numbers. -/
abbrev HomP := (Nat × Nat) × (Nat × Nat) × (Nat × Nat)

/-- One half. -/
def halfP : Nat × Nat := ((p381 + 1) / 2, 0)

/-- `G2Hom.double` on pairs. -/
def dblP (o : ModOps (Nat × Nat)) (R : HomP) : ((Nat × Nat) × (Nat × Nat) × (Nat × Nat)) × HomP :=
  let a := o.mul halfP (o.mul R.1 R.2.1)
  let b := o.mul R.2.1 R.2.1
  let c := o.mul R.2.2 R.2.2
  let e := o.mul (4, 4) (o.add (o.add c c) c)
  let f := o.add (o.add e e) e
  let g := o.mul halfP (o.add b f)
  let yz := o.add R.2.1 R.2.2
  let h := o.sub (o.mul yz yz) (o.add b c)
  let i := o.sub e b
  let j := o.mul R.1 R.1
  let s := o.mul e e
  ((i, o.add (o.add j j) j, o.sub (0, 0) h), (o.mul a (o.sub b f), o.sub (o.mul g g) (o.add (o.add s s) s), o.mul b h))

/-- `G2Hom.add` on pairs. -/
def addP (o : ModOps (Nat × Nat)) (R : HomP) (qx qy : Nat × Nat) : ((Nat × Nat) × (Nat × Nat) × (Nat × Nat)) × HomP :=
  let theta := o.sub R.2.1 (o.mul qy R.2.2)
  let lambda := o.sub R.1 (o.mul qx R.2.2)
  let c := o.mul theta theta
  let d := o.mul lambda lambda
  let e := o.mul lambda d
  let f := o.mul R.2.2 c
  let g := o.mul R.1 d
  let h := o.sub (o.add e f) (o.add g g)
  let j := o.sub (o.mul theta qx) (o.mul lambda qy)
  ((j, o.sub (0, 0) theta, lambda), (o.mul lambda h, o.sub (o.mul theta (o.sub g h)) (o.mul e R.2.1), o.mul R.2.2 e))

/-- `ellValue` on pairs. -/
def lineP (c : (Nat × Nat) × (Nat × Nat) × (Nat × Nat)) (x y : Nat) : Nat :=
  let c0 := c.1
  let c1 := (pairOps p381).mul (x, 0) c.2.1
  let c4 := (pairOps p381).mul (y, 0) c.2.2
  pack baseB ([c0.1 + (p381 - c0.2 % p381), 0, c1.1 + (p381 - c1.2 % p381), c4.1 + (p381 - c4.2 % p381), 0, 0, c0.2, 0, c1.2, c4.2, 0, 0].map (· % p381))

/-- `single` on numbers. -/
def singleP (x y : Nat) (qx qy : Nat × Nat) : List Bool → HomP → Nat → Nat
  | [], _, f => f
  | i :: l, R, f =>
    let D := dblP (pairOps p381) R
    forceN (mulP p381 (mulP p381 f f) (lineP D.1 x y)) fun f =>
    if i then
      let A := addP (pairOps p381) D.2 qx qy
      forceN (mulP p381 f (lineP A.1 x y)) fun f => singleP x y qx qy l A.2 f
    else singleP x y qx qy l D.2 f

/-- The value of the loop for the generators. -/
def genMiller : Nat := singleP g1x g1y g2x g2y loopBits (g2x, g2y, (1, 0)) (pack baseB [1, 0, 0, 0, 0, 0, 0, 0, 0, 0, 0, 0])

/-- The part of the exponent that is left when the first factor is taken away. -/
def hardExp : Nat := 3 * ((p381 ^ 6 + 1) / r381)

/-- Its binary digits but the first. -/
def hardBits : List Bool := (digits2 2100 hardExp []).tail

theorem gen_computed : Nat.gcd ((unpack baseB 12 (powLoop p381 genMiller hardBits genMiller)).getD 1 0) p381 = 1 := by decide +kernel

theorem gen_facts : bitsNat 1 hardBits = hardExp ∧ finalExp = hardExp * (p381 ^ 6 - 1) ∧ 12 * (p381 * p381) < baseB ∧ 0 < p381 ∧ p381 < baseB ∧
    (p381 + 1) / 2 * 2 = p381 + 1 := by decide +kernel

section
variable {K : Type} [Field K] [DecidableEq K] [Fintype K] [Fact (∀ r : K, r ^ 2 ≠ -1 + 0 * r)] [Fact (Irreducible (X ^ 3 - C (xiFq6 K)))]
  [Fact (∀ b : Fq6 K, b ^ 2 ≠ xiFq12 K + 0 * b)]

theorem fq2u_w : inj2 K fq2u = rootW K ^ 6 - 1 := by
  have : (fq2u : Fq2 K) = xiFq6 K - 1 := by
    rw [fq2u, xiFq6, eq_sub_iff_add_eq]
    ext <;> simp <;> rfl
  rw [this, map_sub, map_one, rootW_six]

theorem w_twelve : rootW K ^ 12 = 2 * rootW K ^ 6 - 2 := by
  have h := congrArg (inj2 K) (fq2u_sq (K := K))
  rw [map_mul, fq2u_w, map_neg, map_one] at h
  linear_combination h

/-- What the coordinates represent. -/
def HomP.ev (R : HomP) : G2Hom K := ⟨evPair fq2u R.1, evPair fq2u R.2.1, evPair fq2u R.2.2⟩

/-- What the coefficients represent. -/
def evCoeff (c : (Nat × Nat) × (Nat × Nat) × (Nat × Nat)) : EllCoeff K := (evPair fq2u c.1, evPair fq2u c.2.1, evPair fq2u c.2.2)

variable (hc : Fintype.card K = p381)
include hc

theorem halfP_eq (v : Fq2 K) : evPair fq2u halfP * v = (2⁻¹ : K) • v := by
  have hp := fq_zero hc
  have h2 := p381_two hp
  have e : evPair fq2u halfP = algebraMap K (Fq2 K) 2⁻¹ := by
    have h : (((p381 + 1) / 2 : Nat) : K) = 2⁻¹ := by
      refine eq_inv_of_mul_eq_one_left ?_
      have := congrArg (Nat.cast (R := K)) gen_facts.2.2.2.2.2
      rw [Nat.cast_mul, Nat.cast_add, hp, zero_add, Nat.cast_one] at this
      exact_mod_cast this
    rw [evPair, halfP]
    simp only [Nat.cast_zero, zero_mul, add_zero]
    rw [← h, map_natCast]
  rw [e, Algebra.smul_def]

theorem dblP_eq (R : HomP) : evCoeff (dblP (pairOps p381) R).1 = (R.ev (K := K)).double.1 ∧ (dblP (pairOps p381) R).2.ev = (R.ev (K := K)).double.2 := by
  have hp := fq2_zero (fq_zero hc)
  have hu := fq2u_sq (K := K)
  have hr := right2 hp hu
  have h0 : evPair (fq2u : Fq2 K) (0, 0) = 0 := by simp [evPair]
  simp only [dblP, HomP.ev, evCoeff, G2Hom.double, hr.mul, hr.add, hr.sub, halfP_eq hc, h0, zero_sub, b2_eq, true_and, and_self]

theorem addP_eq (R : HomP) (qx qy : Nat × Nat) : evCoeff (addP (pairOps p381) R qx qy).1 = ((R.ev (K := K)).add (evPair fq2u qx) (evPair fq2u qy)).1 ∧
    (addP (pairOps p381) R qx qy).2.ev = ((R.ev (K := K)).add (evPair fq2u qx) (evPair fq2u qy)).2 := by
  have hp := fq2_zero (fq_zero hc)
  have hu := fq2u_sq (K := K)
  have hr := right2 hp hu
  have h0 : evPair (fq2u : Fq2 K) (0, 0) = 0 := by simp [evPair]
  simp only [addP, HomP.ev, evCoeff, G2Hom.add, hr.mul, hr.add, hr.sub, h0, zero_sub, true_and, and_self]

omit hc in
theorem inj_evPair (a : Nat × Nat) : inj2 K (evPair fq2u a) = a.1 + a.2 * (rootW K ^ 6 - 1) := by
  rw [evPair, map_add, map_mul, map_natCast, map_natCast, fq2u_w]

theorem cast12 : ((p381 : Nat) : Fq12 K) = 0 := by
  have := congrArg (inj1 K) (fq_zero hc)
  rwa [map_natCast, map_zero] at this

omit hc in
theorem lineP_good (c : (Nat × Nat) × (Nat × Nat) × (Nat × Nat)) (x y : Nat) : GoodP p381 (lineP c x y) :=
  ⟨_, by simp, fun z hz => by
    obtain ⟨t, -, rfl⟩ := List.mem_map.mp hz
    exact Nat.mod_lt _ gen_facts.2.2.2.1, rfl⟩

theorem lineP_eq (c : (Nat × Nat) × (Nat × Nat) × (Nat × Nat)) (x y : Nat) : valP (rootW K) (lineP c x y) = ellValue (evCoeff c) (x : K) (y : K) := by
  have hp := cast12 (K := K) hc
  have hp2 := fq2_zero (fq_zero hc)
  have hr := right2 hp2 (fq2u_sq (K := K))
  have h1 : inj1 K (x : K) * inj2 K (evPair fq2u c.2.1) = inj2 K (evPair fq2u ((pairOps p381).mul (x, 0) c.2.1)) := by
    rw [hr.mul, map_mul]
    congr 1
    rw [inj_evPair, map_natCast]
    simp
  have h4 : inj1 K (y : K) * inj2 K (evPair fq2u c.2.2) = inj2 K (evPair fq2u ((pairOps p381).mul (y, 0) c.2.2)) := by
    rw [hr.mul, map_mul]
    congr 1
    rw [inj_evPair, map_natCast]
    simp
  have hs (a b : Nat) : ((a + (p381 - b % p381) : Nat) : Fq12 K) = a - b := by
    rw [Nat.cast_add, Nat.cast_sub (Nat.mod_lt _ gen_facts.2.2.2.1).le, cast_mod hp, hp]
    ring
  rw [lineP, valP_pack (by simp) (fun z hz => by
    obtain ⟨t, -, rfl⟩ := List.mem_map.mp hz
    exact (Nat.mod_lt _ gen_facts.2.2.2.1).trans gen_facts.2.2.2.2.1), evL_mod hp]
  rw [ellValue, evCoeff, h1, h4, inj_evPair, inj_evPair, inj_evPair]
  simp only [evL, hs, Nat.cast_zero]
  ring

theorem singleP_eq (x y : Nat) (qx qy : Nat × Nat) (l : List Bool) : ∀ (R : HomP) (f : Nat), GoodP p381 f →
    GoodP p381 (singleP x y qx qy l R f) ∧
      valP (rootW K) (singleP x y qx qy l R f) = single (x : K) (y : K) (evPair fq2u qx) (evPair fq2u qy) l R.ev (valP (rootW K) f) := by
  have hp := cast12 (K := K) hc
  have hm {a b : Nat} (ha : GoodP p381 a) (hb : GoodP p381 b) := mulP_val hp gen_facts.2.2.2.1 (w_twelve (K := K)) gen_facts.2.2.1 ha hb
  have hg (a b : Nat) : GoodP p381 (mulP p381 a b) := mulP_good gen_facts.2.2.2.1 a b
  induction l with
  | nil => intro R f hf; exact ⟨hf, rfl⟩
  | cons i l ih =>
    intro R f hf
    have e1 : valP (rootW K) (mulP p381 (mulP p381 f f) (lineP (dblP (pairOps p381) R).1 x y)) =
        valP (rootW K) f * valP (rootW K) f * ellValue (R.ev (K := K)).double.1 x y := by
      rw [hm (hg _ _) (lineP_good _ _ _), hm hf hf, lineP_eq hc, (dblP_eq hc R).1]
    cases i with
    | false =>
      have := ih (dblP (pairOps p381) R).2 _ (hg (mulP p381 f f) (lineP (dblP (pairOps p381) R).1 x y))
      rw [e1, (dblP_eq hc R).2] at this
      simp only [singleP, forceN_eq, Bool.false_eq_true, if_false, single]
      exact this
    | true =>
      have := ih (addP (pairOps p381) (dblP (pairOps p381) R).2 qx qy).2 _
        (hg (mulP p381 (mulP p381 f f) (lineP (dblP (pairOps p381) R).1 x y)) (lineP (addP (pairOps p381) (dblP (pairOps p381) R).2 qx qy).1 x y))
      rw [hm (hg _ _) (lineP_good _ _ _), e1, lineP_eq hc, (addP_eq hc _ _ _).1, (addP_eq hc _ _ _).2, (dblP_eq hc R).2] at this
      simp only [singleP, forceN_eq, if_true, single]
      exact this

theorem powLoop_eq {f : Nat} (hf : GoodP p381 f) (l : List Bool) : ∀ (n g : Nat), GoodP p381 g → valP (rootW K) g = valP (rootW K) f ^ n →
    GoodP p381 (powLoop p381 f l g) ∧ valP (rootW K) (powLoop p381 f l g) = valP (rootW K) f ^ bitsNat n l := by
  have hp := cast12 (K := K) hc
  have hm {a b : Nat} (ha : GoodP p381 a) (hb : GoodP p381 b) := mulP_val hp gen_facts.2.2.2.1 (w_twelve (K := K)) gen_facts.2.2.1 ha hb
  have hg (a b : Nat) : GoodP p381 (mulP p381 a b) := mulP_good gen_facts.2.2.2.1 a b
  induction l with
  | nil => intro n g hg h; exact ⟨hg, h⟩
  | cons i l ih =>
    intro n g hG h
    have e1 : valP (rootW K) (mulP p381 g g) = valP (rootW K) f ^ (2 * n) := by rw [hm hG hG, h, two_mul, pow_add]
    cases i with
    | false =>
      have := ih (2 * n) _ (hg g g) e1
      simpa only [powLoop, forceN_eq, Bool.false_eq_true, if_false, bitsNat, Nat.add_zero] using this
    | true =>
      have e2 : valP (rootW K) (mulP p381 (mulP p381 g g) f) = valP (rootW K) f ^ (2 * n + 1) := by
        rw [hm (hg g g) hf, e1]
        exact (pow_succ _ _).symm
      have := ih (2 * n + 1) (mulP p381 (mulP p381 g g) f) (hg _ _) e2
      simpa only [powLoop, forceN_eq, if_true, bitsNat] using this

omit hc in
/-- The second coordinate over the extension of degree 6. -/
theorem evL_im {l : List Nat} (hl : l.length = 12) : (evL (rootW K) l).im =
    mkFq6 (((l.getD 1 0 : Nat) : Fq2 K) + ((l.getD 7 0 : Nat) : Fq2 K) * xiFq6 K, ((l.getD 3 0 : Nat) : Fq2 K) + ((l.getD 9 0 : Nat) : Fq2 K) * xiFq6 K,
      ((l.getD 5 0 : Nat) : Fq2 K) + ((l.getD 11 0 : Nat) : Fq2 K) * xiFq6 K) := by
  obtain ⟨a0, l, rfl⟩ := List.exists_cons_of_length_eq_add_one hl
  obtain ⟨a1, l, rfl⟩ := List.exists_cons_of_length_eq_add_one (by simpa using hl : l.length = 10 + 1)
  obtain ⟨a2, l, rfl⟩ := List.exists_cons_of_length_eq_add_one (by simpa using hl : l.length = 9 + 1)
  obtain ⟨a3, l, rfl⟩ := List.exists_cons_of_length_eq_add_one (by simpa using hl : l.length = 8 + 1)
  obtain ⟨a4, l, rfl⟩ := List.exists_cons_of_length_eq_add_one (by simpa using hl : l.length = 7 + 1)
  obtain ⟨a5, l, rfl⟩ := List.exists_cons_of_length_eq_add_one (by simpa using hl : l.length = 6 + 1)
  obtain ⟨a6, l, rfl⟩ := List.exists_cons_of_length_eq_add_one (by simpa using hl : l.length = 5 + 1)
  obtain ⟨a7, l, rfl⟩ := List.exists_cons_of_length_eq_add_one (by simpa using hl : l.length = 4 + 1)
  obtain ⟨a8, l, rfl⟩ := List.exists_cons_of_length_eq_add_one (by simpa using hl : l.length = 3 + 1)
  obtain ⟨a9, l, rfl⟩ := List.exists_cons_of_length_eq_add_one (by simpa using hl : l.length = 2 + 1)
  obtain ⟨a10, l, rfl⟩ := List.exists_cons_of_length_eq_add_one (by simpa using hl : l.length = 1 + 1)
  obtain ⟨a11, l, rfl⟩ := List.exists_cons_of_length_eq_add_one (by simpa using hl : l.length = 0 + 1)
  obtain rfl : l = [] := by simpa using hl
  have h2 : algebraMap (Fq6 K) (Fq12 K) (xiFq12 K) = rootW K * rootW K := rootW_sq.symm
  have e : evL (rootW K) [a0, a1, a2, a3, a4, a5, a6, a7, a8, a9, a10, a11] =
      algebraMap (Fq6 K) (Fq12 K) (a0 + a2 * xiFq12 K + a4 * xiFq12 K ^ 2 + a6 * xiFq12 K ^ 3 + a8 * xiFq12 K ^ 4 + a10 * xiFq12 K ^ 5) +
      algebraMap (Fq6 K) (Fq12 K) (a1 + a3 * xiFq12 K + a5 * xiFq12 K ^ 2 + a7 * xiFq12 K ^ 3 + a9 * xiFq12 K ^ 4 + a11 * xiFq12 K ^ 5) * rootW K := by
    simp only [evL, map_add, map_mul, map_pow, map_natCast, h2]
    ring
  have h3 : xiFq12 K ^ 3 = algebraMap (Fq2 K) (Fq6 K) (xiFq6 K) := v_cube
  have r (A B : Fq6 K) : (algebraMap (Fq6 K) (Fq12 K) A + algebraMap (Fq6 K) (Fq12 K) B * rootW K).im = B := by
    simp [rootW]
  rw [e, r, mkFq6_eq]
  simp only [List.getD_cons_succ, List.getD_cons_zero, map_add, map_mul, map_natCast]
  linear_combination (a7 + a9 * xiFq12 K + a11 * xiFq12 K ^ 2) * h3

end
end GS
