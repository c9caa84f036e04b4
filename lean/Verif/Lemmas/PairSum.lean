import Verif.Lemmas.PairBls
import Verif.Spec.Miller

/-! # Pairings and sums of pairings, for all coordinates -/

open Polynomial

namespace GS

section
variable {K : Type} [Field K] [DecidableEq K] [Fintype K] [Fact (∀ r : K, r ^ 2 ≠ -1 + 0 * r)] [Fact (Irreducible (X ^ 3 - C (xiFq6 K)))]
  [Fact (∀ b : Fq6 K, b ^ 2 ≠ xiFq12 K + 0 * b)]

omit [DecidableEq K] [Fintype K] in
theorem out_sum (l : List (PairingOutput K)) : rustSum l = (List.prod (show List (Fq12 K) from l) : Fq12 K) := by
  rw [List.prod_eq_foldl]
  rfl

open scoped Classical in
omit [DecidableEq K] [Fintype K] in
theorem mapM_prod {α : Type} (f : α → Fq12 K) (n : Nat) (l : List α) :
    (l.mapM fun x => if f x = 0 then none else some (star (f x) ^ n)).map List.prod =
      if (l.map f).prod = 0 then none else some (star (l.map f).prod ^ n) := by
  induction l with
  | nil => simp
  | cons x l ih =>
    rw [List.mapM_cons, List.map_cons, List.prod_cons]
    by_cases hx : f x = 0
    · simp [hx]
    · by_cases hl : (l.map f).prod = 0
      · rw [if_pos hl, Option.map_eq_none_iff] at ih
        rw [if_neg hx, ih, hl, mul_zero, if_pos rfl]
        rfl
      · rw [if_neg hl, Option.map_eq_some_iff] at ih
        obtain ⟨r, h1, h2⟩ := ih
        rw [if_neg hx, h1, if_neg (mul_ne_zero hx hl), star_mul', mul_pow, ← h2, ← List.prod_cons]
        rfl

variable (hc : Fintype.card K = p381)
include hc

open scoped Classical in
/-- `E::pairing`, for all coordinates. -/
theorem arkPairing_eq (P : Affine K) (Q : Affine (Fq2 K)) :
    arkPairing P Q = if millerValue P Q = 0 then none else some (star (millerValue P Q) ^ finalExp : Fq12 K) := by
  have h : multiMillerLoop [P] [Q] = some (star (millerValue P Q)) := by
    rw [multiMillerLoop_eq, if_pos (by simp)]
    simp
  rw [arkPairing, arkMultiPairing, h]
  show finalExponentiation _ = _
  rw [finalExponentiation_eq hc]
  by_cases h : millerValue P Q = 0
  · rw [if_pos h, if_pos (by rw [h, star_zero])]
  · rw [if_neg h, if_neg (by rwa [star_eq_zero])]

/-- `E::multi_pairing`, for all coordinates. -/
theorem arkMultiPairing_eq (a : List (Affine K)) (b : List (Affine (Fq2 K))) :
    arkMultiPairing a b = if a.length = b.length then ((a.zip b).mapM fun pq => arkPairing pq.1 pq.2).map rustSum else none := by
  classical
  rw [arkMultiPairing, multiMillerLoop_eq]
  by_cases hl : a.length = b.length
  · rw [if_pos hl, if_pos hl]
    show finalExponentiation _ = _
    rw [finalExponentiation_eq hc]
    have h := mapM_prod (fun pq : Affine K × Affine (Fq2 K) => millerValue pq.1 pq.2) finalExp (a.zip b)
    have e : (fun pq : Affine K × Affine (Fq2 K) => arkPairing pq.1 pq.2) =
        fun pq => if millerValue pq.1 pq.2 = 0 then none else some (star (millerValue pq.1 pq.2) ^ finalExp : Fq12 K) := funext fun pq => arkPairing_eq hc pq.1 pq.2
    rw [e]
    have e2 : (rustSum : List (PairingOutput K) → PairingOutput K) = (List.prod : List (Fq12 K) → Fq12 K) := funext out_sum
    refine Eq.trans ?_ (h.symm.trans (congrArg (fun g => Option.map g _) e2.symm))
    generalize (List.map (fun pq : Affine K × Affine (Fq2 K) => millerValue pq.1 pq.2) (a.zip b)).prod = z
    by_cases hz : z = 0
    · rw [if_pos hz, if_pos (by rw [hz, star_zero])]
    · rw [if_neg hz, if_neg (by rwa [star_eq_zero])]
  · rw [if_neg hl, if_neg hl]
    rfl

/-- For points of the groups nothing fails, and the pairing is the bilinear map. -/
theorem arkPairing_group (P : Tor1 K) (Q : Tor2 K) : arkPairing (coordsOf P.1) (coordsOf Q.1) = some (gtOut (gtPair hc P Q)) := by
  classical
  rw [arkPairing_eq hc, if_neg (miller_ne hc P Q)]
  refine congrArg some ?_
  show _ = star (reduced P Q)
  rw [reduced, star_pow]

end

section bilin
variable {n : Nat} {A B C : Type} [AddCommGroup A] [AddCommGroup B] [AddCommGroup C] [Module (ZMod n) A] [Module (ZMod n) B] [Module (ZMod n) C]

/-- A function additive in both arguments is bilinear over the integers modulo `n`. -/
def zmodBilin (f : A → B → C) (h1 : ∀ x x' y, f (x + x') y = f x y + f x' y) (h2 : ∀ x y y', f x (y + y') = f x y + f x y') : A →ₗ[ZMod n] B →ₗ[ZMod n] C :=
  AddMonoidHom.toZModLinearMap n (AddMonoidHom.mk' (fun x => AddMonoidHom.toZModLinearMap n (AddMonoidHom.mk' (f x) (h2 x)))
    fun x x' => LinearMap.ext fun y => h1 x x' y)

theorem zmodBilin_apply (f : A → B → C) (h1 : ∀ x x' y, f (x + x') y = f x y + f x' y) (h2 : ∀ x y y', f x (y + y') = f x y + f x y') (x : A) (y : B) :
    zmodBilin (n := n) f h1 h2 x y = f x y := rfl

end bilin

section bls

/-- The first group as points of `y² = x³ + 4`. -/
noncomputable def blsTor1 : blsG1.torsion r381 →+ Tor1 (ZMod p381) :=
  (incl1 leFq).codRestrict _ fun x => (incl1_killed leFq _).mp ⟨x, rfl⟩

/-- The second group as points of `y² = x³ + 4 (1 + u)`. -/
noncomputable def blsTor2 : blsG2.torsion r381 →+ Tor2 (ZMod p381) :=
  (incl2 leFq).codRestrict _ fun x => (incl2_killed leFq _).mp ⟨x, rfl⟩

/-- The pairing of points of the groups. -/
noncomputable def blsPairing (P : blsG1.torsion r381) (Q : blsG2.torsion r381) : Gt (ZMod p381) := gtPair (ZMod.card p381) (blsTor1 P) (blsTor2 Q)

theorem blsPairing_left (P P' : blsG1.torsion r381) (Q : blsG2.torsion r381) : blsPairing (P + P') Q = blsPairing P Q + blsPairing P' Q := by
  unfold blsPairing
  rw [map_add, gtPair_add_left]

theorem blsPairing_right (P : blsG1.torsion r381) (Q Q' : blsG2.torsion r381) : blsPairing P (Q + Q') = blsPairing P Q + blsPairing P Q' := by
  unfold blsPairing
  rw [map_add, gtPair_add_right]

/-- The pairing of BLS12-381 as a bilinear map. -/
noncomputable def blsE : blsG1.torsion r381 →ₗ[ZMod r381] blsG2.torsion r381 →ₗ[ZMod r381] Gt (ZMod p381) :=
  zmodBilin blsPairing blsPairing_left blsPairing_right

theorem blsE_apply (P : blsG1.torsion r381) (Q : blsG2.torsion r381) : blsE P Q = gtPair (ZMod.card p381) (blsTor1 P) (blsTor2 Q) :=
  zmodBilin_apply _ _ _ _ _

theorem blsTor1_zero (P : blsG1.torsion r381) : blsTor1 P = 0 ↔ P = 0 := by
  constructor
  · intro h
    exact Subtype.ext (congrArg Subtype.val h)
  · rintro rfl
    exact map_zero _

theorem blsTor2_zero (Q : blsG2.torsion r381) : blsTor2 Q = 0 ↔ Q = 0 := by
  constructor
  · intro h
    exact Subtype.ext (congrArg Subtype.val h)
  · rintro rfl
    exact map_zero _

theorem blsE_eq_zero (P : blsG1.torsion r381) (Q : blsG2.torsion r381) : blsE P Q = 0 ↔ P = 0 ∨ Q = 0 := by
  rw [blsE_apply, gtPair_eq_zero, blsTor1_zero, blsTor2_zero]

theorem arkPairing_bls (P : blsG1.torsion r381) (Q : blsG2.torsion r381) : arkPairing (blsG1.rep r381 P) (blsG2.rep r381 Q) = some (gtOut (blsE P Q)) := by
  have h1 : blsG1.rep r381 P = coordsOf (blsTor1 P).1 := incl1_rep leFq P
  have h2 : blsG2.rep r381 Q = coordsOf (blsTor2 Q).1 := incl2_rep leFq Q
  rw [h1, h2, arkPairing_group (ZMod.card p381), blsE_apply]

theorem bls_mapM (l : List (blsG1.torsion r381 × blsG2.torsion r381)) :
    (((l.map fun pq => blsG1.rep r381 pq.1).zip (l.map fun pq => blsG2.rep r381 pq.2)).mapM fun pq => arkPairing pq.1 pq.2) =
      some (l.map fun pq => gtOut (blsE pq.1 pq.2)) := by
  induction l with
  | nil => rfl
  | cons x l ih => rw [List.map_cons, List.map_cons, List.zip_cons_cons, List.mapM_cons, ih, arkPairing_bls]; rfl

theorem gtOut_sum (l : List (Gt (ZMod p381))) (x : Gt (ZMod p381)) : (l.map gtOut).foldl (fun a b => a + b) (gtOut x) = gtOut (x + l.sum) := by
  induction l generalizing x with
  | nil => rw [List.sum_nil, add_zero]; rfl
  | cons y l ih => rw [List.map_cons, List.foldl_cons, ← gtOut_adds.add, ih, List.sum_cons, add_assoc]

theorem bls_sum (l : List (blsG1.torsion r381 × blsG2.torsion r381)) :
    ((((l.map fun pq => blsG1.rep r381 pq.1).zip (l.map fun pq => blsG2.rep r381 pq.2)).mapM fun pq => arkPairing pq.1 pq.2).map rustSum) =
      some (gtOut ((l.map fun pq => blsE pq.1 pq.2).sum)) := by
  rw [bls_mapM]
  refine congrArg some ?_
  have h := gtOut_sum (l.map fun pq => blsE pq.1 pq.2) 0
  rw [zero_add, List.map_map, gtOut_adds.zero] at h
  exact h

theorem bls_nonzero1 : ∃ P : blsG1.torsion r381, P ≠ 0 := by
  obtain ⟨g, h1, h2, -⟩ := g1Curve_generator (ZMod.card p381) leFq
  exact ⟨⟨g, h1⟩, fun h => h2 (congrArg Subtype.val h)⟩

theorem bls_nonzero2 : ∃ P : blsG2.torsion r381, P ≠ 0 := by
  obtain ⟨g, h1, h2, -⟩ := g2Curve_generator (ZMod.card p381) leFq
  exact ⟨⟨g, h1⟩, fun h => h2 (congrArg Subtype.val h)⟩

end bls

section off
variable {K : Type} [Field K] [DecidableEq K] [Fintype K] [Fact (∀ r : K, r ^ 2 ≠ -1 + 0 * r)] [Fact (Irreducible (X ^ 3 - C (xiFq6 K)))]
  [Fact (∀ b : Fq6 K, b ^ 2 ≠ xiFq12 K + 0 * b)]

omit [DecidableEq K] [Fintype K] in
theorem single_zero (x y : K) (qx qy : Fq2 K) (l : List Bool) : ∀ R : G2Hom K, single x y qx qy l R 0 = 0 := by
  induction l with
  | nil => intro R; rfl
  | cons i l ih =>
    intro R
    cases i <;> simp [single, ih]

theorem origin_value : millerValue (⟨0, 0, false⟩ : Affine K) ⟨0, 0, false⟩ = 0 := by
  have hb : ∃ l, loopBits = true :: l := ⟨_, rfl⟩
  obtain ⟨l, hl⟩ := hb
  rw [millerValue, if_neg (by simp), hl]
  simp [single, ellValue, G2Hom.add, single_zero]

theorem arkPairing_origin (hc : Fintype.card K = p381) : arkPairing (⟨0, 0, false⟩ : Affine K) ⟨0, 0, false⟩ = none := by
  classical
  rw [arkPairing_eq hc, if_pos origin_value]
  rfl

end off
end GS
