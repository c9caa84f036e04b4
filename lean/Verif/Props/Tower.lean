import Verif.Lemmas.TowerPair
import Verif.Props.Ark
import Verif.Spec.TowerWords

/-!
# C127: the fields of BLS12-381 in coordinates, down to words

Above the prime field the library computes with pairs and triples, by formulas that save multiplications, with a special square and a special power for the second half of the final exponentiation and with
tables for the Frobenius maps. All of them give what the fields give, and so `multi_pairing`, computed with words of 64 bits from beginning to end, is the pairing.
-/

set_option linter.unusedSectionVars false

namespace GS
open Polynomial Tower

section words
variable {m : Nat} {p : List Nat} [Fact m.Prime]

theorem wordOf_residue (h : Words.IsModulus m p) (n : Nat) : ofWord m (wordOf h n) = n := by
  obtain ⟨h, rfl⟩ := h
  have hlt : n * 2 ^ (64 * p.length) % Words.val p < Words.val p := Nat.mod_lt _ (by have := h.big; omega)
  have hu := h.unit
  rw [Words.b64_pow] at hu
  show ((Words.val (Words.ofNat p.length (n * 2 ^ (64 * p.length) % Words.val p)) : Nat) : ZMod (Words.val p)) * _ = _
  rw [Words.val_ofNat (hlt.trans (Words.val_lt h.isWords)), ZMod.natCast_mod, Nat.cast_mul, mul_assoc, hu, mul_one]

/-- C127: words are a prime field. -/
theorem C127_words (h : Words.IsModulus m p) : @Models (Word p) (ZMod m) (wordOps h) _ (ofWord m) := by
  let _ := wordOps h
  refine ⟨⟨fun a b e => Subtype.ext ?_, fun x => ?_⟩, ?_, ?_, fun a b => ?_, fun a b => ?_, fun a => ?_, fun a b => ?_, fun a => ?_, fun a => ?_, fun a b c d => ?_, fun a ha => ?_, fun a ha => ?_⟩
  · exact ((C126_unique h).2.1 a.1 b.1 a.2 b.2).2 e
  · obtain ⟨a, ⟨ha, e⟩, -⟩ := (C126_unique h).1 x
    exact ⟨⟨a, ha⟩, e⟩
  · exact (wordOf_residue h 0).trans Nat.cast_zero
  · exact (wordOf_residue h 1).trans Nat.cast_one
  · exact (C126_add h a.2 b.2).1.2.1
  · exact (C126_add h a.2 b.2).2.1.2
  · exact (C126_add h a.2 a.2).2.2.1.2
  · obtain ⟨c, e, -, e'⟩ := (C126_mul h a.2 b.2).1
    show Words.residue m p ((Words.mul p a.1 b.1).get _) = _
    simp only [e, Option.get_some]
    exact e'
  · exact (C126_add h a.2 a.2).2.2.2.2
  · obtain ⟨c, e, -, e'⟩ := (C126_mul h a.2 a.2).2
    show Words.residue m p ((Words.square p a.1).get _) = _
    simp only [e, Option.get_some]
    exact e'
  · obtain ⟨x, e, -, e'⟩ := C126_sum_of_products h [(a.1, c.1), (b.1, d.1)] (by simp [a.2, b.2, c.2, d.2])
    show Words.residue m p ((Words.sumOfProducts p _).get _) = _
    simp only [e, Option.get_some]
    simpa [ofWord] using e'
  · have e := (C126_inverse h a.2).1 ha
    show (match e : Words.inverse p a.1 with | some (some c) => some (⟨c, _⟩ : Word p) | _ => none) = none
    split
    · next e' => rw [e] at e'; simp at e'
    · rfl
  · obtain ⟨c, e, hc, e'⟩ := (C126_inverse h a.2).2 ha
    refine ⟨⟨c, hc⟩, ?_, e'⟩
    show (match e : Words.inverse p a.1 with | some (some c) => some (⟨c, _⟩ : Word p) | _ => none) = _
    split
    · next e'' =>
      rw [e] at e''
      simp only [Option.some.injEq] at e''
      exact congrArg some (Subtype.ext e''.symm)
    · next hn => exact absurd e (hn c)

end words

section tower
variable {R S : Type} [Ops R] [DecidableEq R] [Field S] [DecidableEq S] [Fintype S] {φ : R → S} [Fact (∀ r : S, r ^ 2 ≠ -1 + 0 * r)] [Fact (Irreducible (X ^ 3 - C (xiFq6 S)))]
  [Fact (∀ b : Fq6 S, b ^ 2 ≠ xiFq12 S + 0 * b)]

/-- C127: pairs, triples of pairs and pairs of those compute in `Fq2`, `Fq6` and `Fq12`, whatever computes in the prime field. -/
theorem C127_fields (h : Models φ) : Models (val2 φ) ∧ Models (val6 φ) ∧ Models (val12 φ) := ⟨models2 h, models6 h, models12 h⟩

/-- C127: products with the constants of the tower, with the sparse elements of the lines, and conjugates. -/
theorem C127_sparse (h : Models φ) :
    (∀ a, val2 φ (mulXi a) = xiFq6 S * val2 φ a) ∧ (∀ a, val6 φ (mulV a) = xiFq12 S * val6 φ a) ∧
    (∀ f c0 c1 c4, val12 φ (Tower.mulBy014 f c0 c1 c4) = val12 φ f * ⟨mkFq6 (val2 φ c0, val2 φ c1, 0), mkFq6 (0, val2 φ c4, 0)⟩) ∧
    ∀ f, val12 φ (conj f) = star (val12 φ f) := by
  refine ⟨val2_mulXi h, val6_mulV h, fun f c0 c1 c4 => ?_, val12_conj h⟩
  rw [val12_mulBy014 h, GS.mulBy014]
  ext
  · simp only [QuadraticAlgebra.re_mul]; ring
  · have e : mkFq6 (val2 φ c0, val2 φ c1 + val2 φ c4, 0) = mkFq6 (val2 φ c0, val2 φ c1, 0) + mkFq6 (0, val2 φ c4, 0) := by
      simp only [Tower.mkFq6_eq, map_add, map_zero]; ring
    simp only [e, QuadraticAlgebra.im_mul]; ring

variable (hc : Fintype.card S = p381)
include hc

/-- C127: with the right table the Frobenius map is a power of the characteristic. -/
theorem C127_frobenius (h : Models φ) {T : FrobTable R} {k : Nat} (hT : TableFor φ T k) (f : Fp12 R) : val12 φ (Tower.frob12 T f) = val12 φ f ^ p381 ^ k := val12_frob hc h hT f

/-- C127: the tables of ark-bls12-381 are right. -/
theorem C127_tables (mk : Nat → R) (hmk : ∀ n, φ (mk n) = n) : TableFor φ (tableOf mk frobCoeffs1 true) 1 ∧ TableFor φ (tableOf mk frobCoeffs2 false) 2 := by
  have hp := fq2_zero (fq_zero hc)
  have hu := fq2u_sq (K := S)
  have hxi : (xiFq6 S) = evPair fq2u (1, 1) := by rw [← toFq2_eq]; simp [toFq2, xiFq6]
  have key : ∀ (c : Nat × Nat) (e : Nat), e < 2 ^ 764 → (pairOps p381).isZero ((pairOps p381).sub c (pairPow p381 764 (1, 1) e)) = true →
      val2 φ ⟨mk c.1, mk c.2⟩ = xiFq6 S ^ e := by
    intro c e he hz
    have h1 := evPair_sub hp hu hz
    rw [pairPow_eq hp hu _ _ _ he, ← hxi, ← toFq2_eq] at h1
    rw [← h1, val2, toFq2]
    ext
    · exact hmk _
    · exact hmk _
  refine ⟨⟨key _ _ ?_ ?_, key _ _ ?_ ?_, key _ _ ?_ ?_, rfl⟩, ⟨key _ _ ?_ ?_, key _ _ ?_ ?_, key _ _ ?_ ?_, rfl⟩⟩ <;> decide +kernel

/-- C127: in the cyclotomic subgroup, where everything is after the first half of the final exponentiation, `cyclotomic_square` squares and `cyclotomic_exp` raises to the power. -/
theorem C127_cyclotomic (h : Models φ) (f : Fp12 R) (hf : val12 φ f ≠ 0) (hcyc : val12 φ f ^ (p381 ^ 4 + 1 - p381 ^ 2) = 1) :
    val12 φ (cyclotomicSquare f) = val12 φ f ^ 2 ∧ (∀ e, val12 φ (cyclotomicExp f e) = val12 φ f ^ e) ∧ val12 φ (conj f) = (val12 φ f)⁻¹ := by
  have hC := (cyc_iff _ hf).2 hcyc
  exact ⟨val12_cyclotomicSquare hc h f hC, val12_cyclotomicExp hc h f hC, by rw [val12_conj h, hC.star_eq hc]⟩

/-- C127: the final exponentiation. -/
theorem C127_final_exponentiation (h : Models φ) {T1 T2 : FrobTable R} (hT1 : TableFor φ T1 1) (hT2 : TableFor φ T2 2) (f : Fp12 R) :
    (val12 φ f = 0 → Tower.finalExponentiation blsX T1 T2 f = none) ∧
    (val12 φ f ≠ 0 → ∃ g, Tower.finalExponentiation blsX T1 T2 f = some g ∧ val12 φ g = val12 φ f ^ (3 * ((p381 ^ 12 - 1) / r381))) := by
  have e := val12_finalExponentiation hc h hT1 hT2 f
  have h3 := C123_final_exponentiation hc (val12 φ f)
  constructor
  · intro h0
    rw [h3.1.2 h0] at e
    exact Option.map_eq_none_iff.1 e
  · intro h0
    rw [h3.2.1 h0] at e
    exact Option.map_eq_some_iff.1 e

/-- C127: `multi_pairing`, for all coordinates, on the curves or not. -/
theorem C127_multi_pairing (h : Models φ) {B : Fp2 R} (hB : val2 φ B = ⟨4, 4⟩) {T1 T2 : FrobTable R} (hT1 : TableFor φ T1 1) (hT2 : TableFor φ T2 2)
    (a : List (Affine R)) (b : List (Affine (Fp2 R))) :
    (multiPairing B T1 T2 a b).map (val12 φ) = arkMultiPairing (a.map (valA φ)) (b.map (valA (val2 φ))) := val_multiPairing hc h hB hT1 hT2 a b

end tower

section bls

/-- `multi_pairing` of BLS12-381 on words. -/
def wordPairing (a : List (Affine (Word Words.fqWords))) (b : List (Affine (Fp2 (Word Words.fqWords)))) : Option (Fp12 (Word Words.fqWords)) :=
  multiPairing ⟨wordOf C126_bls.2 4, wordOf C126_bls.2 4⟩ (tableOf (wordOf C126_bls.2) frobCoeffs1 true) (tableOf (wordOf C126_bls.2) frobCoeffs2 false) a b

theorem wordPairing_eq (a : List (Affine (Word Words.fqWords))) (b : List (Affine (Fp2 (Word Words.fqWords)))) :
    (wordPairing a b).map (val12 (ofWord p381)) = arkMultiPairing (a.map (valA (ofWord p381))) (b.map (valA (val2 (ofWord p381)))) := by
  have hT := C127_tables (ZMod.card p381) (wordOf C126_bls.2) (φ := ofWord p381) (wordOf_residue C126_bls.2)
  refine C127_multi_pairing (ZMod.card p381) (C127_words C126_bls.2) ?_ hT.1 hT.2 a b
  ext
  · exact (wordOf_residue C126_bls.2 4).trans (by norm_num)
  · exact (wordOf_residue C126_bls.2 4).trans (by norm_num)

/-- C127: for points of the groups of BLS12-381 given in words, `multi_pairing` computed with words does not panic and gives the words of the sum of the pairings. -/
theorem C127_bls (l : List (blsG1.torsion r381 × blsG2.torsion r381)) (a : List (Affine (Word Words.fqWords))) (b : List (Affine (Fp2 (Word Words.fqWords))))
    (ha : a.map (valA (ofWord p381)) = l.map fun pq => blsG1.rep r381 pq.1) (hb : b.map (valA (val2 (ofWord p381))) = l.map fun pq => blsG2.rep r381 pq.2) :
    ∃ t, wordPairing a b = some t ∧ val12 (ofWord p381) t = gtOut ((l.map fun pq => blsE pq.1 pq.2).sum) ∧
      ∀ t', val12 (ofWord p381) t' = gtOut ((l.map fun pq => blsE pq.1 pq.2).sum) → t' = t := by
  have e := wordPairing_eq a b
  rw [ha, hb, C123_bls_multi_pairing] at e
  obtain ⟨t, h1, h2⟩ := Option.map_eq_some_iff.1 e
  exact ⟨t, h1, h2, fun t' h' => (C127_fields (C127_words C126_bls.2)).2.2.bij.1 (h'.trans h2.symm)⟩

theorem valA_inj {R S : Type} {φ : R → S} (h : Function.Injective φ) : Function.Injective (valA φ) := by
  rintro ⟨x, y, i⟩ ⟨x', y', i'⟩ e
  simp only [valA, Affine.mk.injEq] at e
  rw [h e.1, h e.2.1, e.2.2]

/-- C127: all points have words, so that nothing is left out by `C127_bls`. -/
theorem C127_all_points (P : Affine (ZMod p381)) (Q : Affine (Fq2 (ZMod p381))) : ∃! PQ : Affine (Word Words.fqWords) × Affine (Fp2 (Word Words.fqWords)),
    valA (ofWord p381) PQ.1 = P ∧ valA (val2 (ofWord p381)) PQ.2 = Q := by
  have h := C127_words (m := p381) C126_bls.2
  have h2 := (C127_fields h).1
  obtain ⟨x, hx⟩ := h.bij.2 P.x
  obtain ⟨y, hy⟩ := h.bij.2 P.y
  obtain ⟨u, hu⟩ := h2.bij.2 Q.x
  obtain ⟨v, hv⟩ := h2.bij.2 Q.y
  have hi1 : Function.Injective (valA (ofWord p381) (R := Word Words.fqWords)) := valA_inj h.bij.1
  have hi2 : Function.Injective (valA (val2 (ofWord p381)) (R := Fp2 (Word Words.fqWords))) := valA_inj h2.bij.1
  have e1 : valA (ofWord p381) (⟨x, y, P.infinity⟩ : Affine (Word Words.fqWords)) = P := by rw [valA, hx, hy]
  have e2 : valA (val2 (ofWord p381)) (⟨u, v, Q.infinity⟩ : Affine (Fp2 (Word Words.fqWords))) = Q := by rw [valA, hu, hv]
  exact ⟨(⟨x, y, P.infinity⟩, ⟨u, v, Q.infinity⟩), ⟨e1, e2⟩, fun PQ hPQ => Prod.ext (hi1 (hPQ.1.trans e1.symm)) (hi2 (hPQ.2.trans e2.symm))⟩

/-- C127: for all points of the curves in words, in the groups or not, the computation with words panics exactly when 13 times a second point that counts is zero. -/
theorem C127_panics (l : List ((cubic (4 : ZMod p381)).Point × (cubic (⟨4, 4⟩ : Fq2 (ZMod p381))).Point)) (a : List (Affine (Word Words.fqWords))) (b : List (Affine (Fp2 (Word Words.fqWords))))
    (ha : a.map (valA (ofWord p381)) = l.map fun pq => coordsOf pq.1) (hb : b.map (valA (val2 (ofWord p381))) = l.map fun pq => coordsOf pq.2) :
    wordPairing a b = none ↔ ∃ pq ∈ l, pq.1 ≠ 0 ∧ pq.2 ≠ 0 ∧ 13 • pq.2 = 0 := by
  have e := wordPairing_eq a b
  rw [ha, hb] at e
  rw [← C124_multi_pairing_panics (ZMod.card p381)]
  exact ⟨fun h0 => e.symm.trans (by rw [h0]; rfl), fun h0 => Option.map_eq_none_iff.1 (e.trans h0)⟩

end bls

namespace Ex

/-- There are points of the groups whose words are paired to words that do not stand for 1. -/
example : ∃ (a : Affine (Word Words.fqWords)) (b : Affine (Fp2 (Word Words.fqWords))) (t : Fp12 (Word Words.fqWords)),
    wordPairing [a] [b] = some t ∧ t ≠ 1 := by
  obtain ⟨P, hP⟩ := bls_nonzero1
  obtain ⟨Q, hQ⟩ := bls_nonzero2
  obtain ⟨⟨a, b⟩, ⟨ha, hb⟩, -⟩ := C127_all_points (blsG1.rep r381 P) (blsG2.rep r381 Q)
  obtain ⟨t, h1, h2, -⟩ := C127_bls [(P, Q)] [a] [b] (by rw [List.map_singleton, List.map_singleton]; exact congrArg (· :: []) ha) (by rw [List.map_singleton, List.map_singleton]; exact congrArg (· :: []) hb)
  have hne : blsE P Q ≠ 0 := fun h => (blsE_eq_zero P Q).1 h |>.elim hP hQ
  refine ⟨a, b, t, h1, ?_⟩
  rintro rfl
  rw [(C127_fields (C127_words C126_bls.2)).2.2.one] at h2
  simp only [List.map_cons, List.map_nil, List.sum_cons, List.sum_nil, add_zero] at h2
  exact hne (gtOut_adds.injective (h2.symm.trans gtOut_adds.zero.symm))

/-- The cyclotomic subgroup has elements other than 1. -/
example : ∃ f : Fp12 (Word Words.fqWords), f ≠ 1 ∧ val12 (ofWord p381) f ≠ 0 ∧ val12 (ofWord p381) f ^ (p381 ^ 4 + 1 - p381 ^ 2) = 1 := by
  obtain ⟨P, hP⟩ := bls_nonzero1
  obtain ⟨Q, hQ⟩ := bls_nonzero2
  have hM := (C127_fields (C127_words (m := p381) C126_bls.2)).2.2
  obtain ⟨f, hf⟩ := hM.bij.2 (gtRep (blsE P Q))
  have hr := (C123_multi_pairing (ZMod.card p381) _ _).2.2 _ (C123_bls_multi_pairing [(P, Q)])
  simp only [List.map_cons, List.map_nil, List.sum_cons, List.sum_nil, add_zero] at hr
  refine ⟨f, ?_, ?_, ?_⟩
  · rintro rfl
    rw [hM.one] at hf
    exact (fun h => (blsE_eq_zero P Q).1 h |>.elim hP hQ) (gtOut_adds.injective (hf.symm.trans gtOut_adds.zero.symm))
  · rw [hf]
    exact Units.ne_zero _
  · rw [hf]
    have e : p381 ^ 4 + 1 - p381 ^ 2 = r381 * ((p381 ^ 4 + 1 - p381 ^ 2) / r381) := by decide +kernel
    rw [e, pow_mul]
    exact (congrArg (· ^ _) hr).trans (one_pow _)

/-- Outside of it `cyclotomic_square` does not square: it makes 8 of 2. -/
theorem cyclotomic_two {R S : Type} [Ops R] [DecidableEq R] [Field S] [DecidableEq S] [Fintype S] {φ : R → S} [Fact (∀ r : S, r ^ 2 ≠ -1 + 0 * r)] [Fact (Irreducible (X ^ 3 - C (xiFq6 S)))]
    [Fact (∀ b : Fq6 S, b ^ 2 ≠ xiFq12 S + 0 * b)] (h : Models φ) (h4 : (4 : S) ≠ 0) : ∃ f : Fp12 R, val12 φ f = 2 ∧ val12 φ (cyclotomicSquare f) ≠ val12 φ f ^ 2 := by
  have h2 := (C127_fields h).1
  have h12 := (C127_fields h).2.2
  refine ⟨⟨⟨1 + 1, 0, 0⟩, ⟨0, 0, 0⟩⟩, ?_, fun e => ?_⟩
  · rw [show (2 : Fq12 S) = algebraMap (Fq6 S) (Fq12 S) (algebraMap (Fq2 S) (Fq6 S) (1 + 1)) by rw [one_add_one_eq_two, map_ofNat, map_ofNat]]
    ext
    · simp [val12, val6, Tower.mkFq6_eq, h2.add, h2.zero, h2.one]; rfl
    · simp [val12, val6, Tower.mkFq6_eq, h2.zero]; exact (add_zero 0).symm
  · rw [pow_two, ← h12.mul] at e
    have e' := congrArg (fun g : Fp12 R => val2 φ g.c0.c0) (h12.bij.1 e)
    have m12 : ∀ a b : Fp12 R, (a * b).c0.c0 = mulXi (a.c1 * b.c1).c2 + (a.c0 * b.c0).c0 := fun _ _ => rfl
    have m6 : ∀ a b : Fp6 R, a * b = mul6 a b := fun _ _ => rfl
    simp only [m12, m6, mul6, cyclotomicSquare, squareFp4, h2.add, h2.sub, h2.mul, h2.double, h2.zero, h2.one, val2_mulXi h] at e'
    have e4 : (algebraMap S (Fq2 S)) 4 = 0 := by rw [map_ofNat]; linear_combination e'
    exact h4 ((algebraMap S (Fq2 S)).injective (e4.trans (map_zero _).symm))

example : ∃ f : Fp12 (Word Words.fqWords), val12 (ofWord p381) f = 2 ∧ val12 (ofWord p381) (cyclotomicSquare f) ≠ val12 (ofWord p381) f ^ 2 :=
  cyclotomic_two (C127_words C126_bls.2) fun h => absurd ((ZMod.natCast_eq_zero_iff 4 p381).1 (by exact_mod_cast h)) (by decide +kernel)

/-- There are points for which the computation with words panics. -/
example : ∃ (a : Affine (Word Words.fqWords)) (b : Affine (Fp2 (Word Words.fqWords))), wordPairing [a] [b] = none := by
  obtain ⟨Q, hQ, h13, -⟩ := C124_order_13 (K := ZMod p381) (ZMod.card p381)
  obtain ⟨⟨a, b⟩, ⟨ha, hb⟩, -⟩ := C127_all_points (coordsOf qFour) (coordsOf Q)
  exact ⟨a, b, (C127_panics [(qFour, Q)] [a] [b] (congrArg (· :: []) ha) (congrArg (· :: []) hb)).2 ⟨(qFour, Q), by simp, qFour_ne, hQ, h13⟩⟩

end Ex

end GS
