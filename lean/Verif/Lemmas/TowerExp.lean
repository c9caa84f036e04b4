import Verif.Lemmas.TowerCyc

/-!
# Powers in the cyclotomic subgroup, and the final exponentiation
-/

open Polynomial

namespace GS.Tower

set_option linter.unusedSectionVars false

/-- The number with given signed digits, lowest first. -/
def digits : List Int → Int
  | [] => 0
  | z :: l => z + 2 * digits l

theorem findNaf_digit (f n : Nat) : ∀ z ∈ findNaf f n, z = -1 ∨ z = 0 ∨ z = 1 := by
  induction f generalizing n with
  | zero => intro z hz; simp [findNaf] at hz
  | succ f ih =>
    intro z hz
    rw [findNaf] at hz
    split at hz
    · simp at hz
    · split at hz
      · rcases List.mem_cons.1 hz with h | h
        · omega
        · exact ih _ z h
      · rcases List.mem_cons.1 hz with h | h
        · exact .inr (.inl h)
        · exact ih _ z h

theorem findNaf_digits (f n : Nat) (h : n < f) : digits (findNaf f n) = n := by
  induction f generalizing n with
  | zero => omega
  | succ f ih =>
    rw [findNaf]
    split
    · next h0 => rw [h0]; rfl
    · split
      · next h1 =>
        simp only [digits]
        split <;> rw [ih _ (by omega)] <;> omega
      · rw [digits, ih _ (by omega)]; omega

theorem foldl_reverse_digits (l : List Int) : l.reverse.foldl (fun v z => 2 * v + z) 0 = digits l := by
  rw [List.foldl_reverse]
  induction l with
  | nil => rfl
  | cons z l ih => rw [List.foldr_cons, ih, digits]; ring

section
variable {R S : Type} [Ops R] [DecidableEq R] [Field S] [DecidableEq S] [Fintype S] {φ : R → S} [Fact (∀ r : S, r ^ 2 ≠ -1 + 0 * r)] [Fact (Irreducible (X ^ 3 - C (xiFq6 S)))]
  [Fact (∀ b : Fq6 S, b ^ 2 ≠ xiFq12 S + 0 * b)]

theorem InCyc.mul {x y : Fq12 S} (hx : InCyc x) (hy : InCyc y) : InCyc (x * y) :=
  ⟨mul_ne_zero hx.1 hy.1, by rw [mul_pow, mul_pow, mul_mul_mul_comm, hx.2, hy.2]⟩

theorem InCyc.zpow {x : Fq12 S} (hx : InCyc x) (n : ℤ) : InCyc (x ^ n) := by
  refine ⟨zpow_ne_zero _ hx.1, ?_⟩
  have e : ∀ k : Nat, (x ^ n) ^ k = (x ^ k) ^ n := fun k => by rw [← zpow_natCast, ← zpow_natCast, zpow_comm]
  rw [e, e, ← mul_zpow, hx.2]

theorem InCyc.pow {x : Fq12 S} (hx : InCyc x) (n : Nat) : InCyc (x ^ n) := by
  rw [← zpow_natCast]; exact hx.zpow n

theorem cyc_one : InCyc (1 : Fq12 S) := ⟨one_ne_zero, by simp⟩

theorem cyc_exps : p381 ^ 2 + (p381 ^ 6 + 1) = p381 ^ 6 + 1 + p381 ^ 2 ∧ (p381 ^ 4 + 1 - p381 ^ 2) * (p381 ^ 2 + 1) = p381 ^ 6 + 1 ∧ p381 ^ 4 + 1 - p381 ^ 2 + p381 ^ 2 = p381 ^ 4 + 1 ∧
    ((p381 ^ 6 - 1) * (p381 ^ 2 + 1)) * (p381 ^ 4 + 1 - p381 ^ 2) = p381 ^ 12 - 1 := by decide +kernel

theorem cyc_iff (x : Fq12 S) (hx : x ≠ 0) : InCyc x ↔ x ^ (p381 ^ 4 + 1 - p381 ^ 2) = 1 := by
  have e : x * x ^ p381 ^ 4 = x ^ (p381 ^ 4 + 1 - p381 ^ 2) * x ^ p381 ^ 2 := by rw [← pow_add, cyc_exps.2.2.1, pow_succ' x]
  rw [InCyc, e]
  constructor
  · exact fun h => mul_right_cancel₀ (pow_ne_zero _ hx) (h.2.trans (one_mul _).symm)
  · exact fun h => ⟨hx, by rw [h, one_mul]⟩

variable (hc : Fintype.card S = p381)
include hc

theorem InCyc.star_eq {x : Fq12 S} (hx : InCyc x) : star x = x⁻¹ := by
  rw [star_eq_pow hc]
  apply eq_inv_of_mul_eq_one_left
  rw [← pow_succ, ← cyc_exps.2.1, pow_mul, (cyc_iff x hx.1).1 hx, one_pow]

theorem InCyc.star {x : Fq12 S} (hx : InCyc x) : InCyc (star x) := by rw [star_eq_pow hc]; exact hx.pow _

theorem easy_cyc {x : Fq12 S} (hx : x ≠ 0) : InCyc ((Star.star x * x⁻¹) ^ p381 ^ 2 * (Star.star x * x⁻¹)) := by
  have e : (Star.star x * x⁻¹) ^ p381 ^ 2 * (Star.star x * x⁻¹) = x ^ ((p381 ^ 6 - 1) * (p381 ^ 2 + 1)) := by
    have h1 : Star.star x * x⁻¹ = x ^ (p381 ^ 6 - 1) := by
      rw [star_eq_pow hc, ← div_eq_mul_inv, div_eq_iff hx, ← pow_succ]
      exact congrArg (x ^ ·) (by decide +kernel)
    rw [h1, ← pow_succ, ← pow_mul]
  rw [e, cyc_iff _ (pow_ne_zero _ hx), ← pow_mul, cyc_exps.2.2.2, fq12_unit hc hx]

theorem val12_cyclotomicSquare (h : Models φ) (f : Fp12 R) (hf : InCyc (val12 φ f)) : val12 φ (cyclotomicSquare f) = val12 φ f ^ 2 := by
  have h2 := models2 h
  have e := ofCoeffs_square hc _ _ _ _ _ _ (show ofCoeffs (val2 φ f.c0.c0) (val2 φ f.c1.c0) (val2 φ f.c0.c1) (val2 φ f.c1.c1) (val2 φ f.c0.c2) (val2 φ f.c1.c2) * _ = _ from hf.2)
  have e' : val12 φ f = ofCoeffs (val2 φ f.c0.c0) (val2 φ f.c1.c0) (val2 φ f.c0.c1) (val2 φ f.c1.c1) (val2 φ f.c0.c2) (val2 φ f.c1.c2) := rfl
  rw [e', e]
  simp only [val12, val6, cyclotomicSquare, squareFp4, h2.add, h2.sub, h2.mul, h2.double, val2_mulXi h, ofCoeffs]
  congr 3
  · ring
  · congr 1 <;> ring
  · ring
  · congr 1 <;> ring

theorem val12_expLoop (h : Models φ) (f : Fp12 R) (hf : InCyc (val12 φ f)) (l : List Int) (hl : ∀ z ∈ l, z = -1 ∨ z = 0 ∨ z = 1) (res : Fp12 R) (found : Bool) (v : Int)
    (hres : val12 φ res = val12 φ f ^ v) (hfound : found = false → v = 0) :
    val12 φ (expLoop f (conj f) l res found) = val12 φ f ^ l.foldl (fun v z => 2 * v + z) v := by
  have h12 := models12 h
  induction l generalizing res found v with
  | nil => exact hres
  | cons z l ih =>
    have hl' : ∀ z ∈ l, z = -1 ∨ z = 0 ∨ z = 1 := fun z hz => hl z (List.mem_cons_of_mem _ hz)
    have hres' : val12 φ (if found then cyclotomicSquare res else res) = val12 φ f ^ (2 * v) := by
      cases found with
      | false => rw [if_neg (by decide), hres, hfound rfl, mul_zero]
      | true =>
        rw [if_pos rfl, val12_cyclotomicSquare hc h _ (by rw [hres]; exact hf.zpow v), hres, mul_comm, zpow_mul]
        exact (zpow_natCast _ 2).symm
    rw [expLoop, List.foldl_cons]
    split
    · next hz => subst hz; rw [add_zero]; exact ih hl' _ _ _ hres' fun e => by rw [hfound e, mul_zero]
    · next hz =>
      refine ih hl' _ _ _ ?_ fun e => by simp at e
      split
      · next hp =>
        have : z = 1 := by rcases hl z List.mem_cons_self with e | e | e <;> omega
        rw [h12.mul, hres', this, zpow_add_one₀ hf.1]
      · next hp =>
        have : z = -1 := by rcases hl z List.mem_cons_self with e | e | e <;> omega
        rw [h12.mul, hres', this, val12_conj h, hf.star_eq hc, ← sub_eq_add_neg, zpow_sub_one₀ hf.1]

theorem val12_cyclotomicExp (h : Models φ) (f : Fp12 R) (hf : InCyc (val12 φ f)) (e : Nat) : val12 φ (cyclotomicExp f e) = val12 φ f ^ e := by
  have h12 := models12 h
  rw [cyclotomicExp, if_neg (fun h0 => hf.1 (by rw [h0, h12.zero])),
    val12_expLoop hc h f hf _ (fun z hz => findNaf_digit _ _ z (List.mem_reverse.1 hz)) 1 false 0 (by rw [h12.one, zpow_zero]) (fun _ => rfl),
    foldl_reverse_digits, findNaf_digits _ _ (Nat.lt_succ_self e), zpow_natCast]

theorem val2_frob (h : Models φ) {T : FrobTable R} {k : Nat} (hT : TableFor φ T k) (a : Fp2 R) : val2 φ (frob2 T a) = val2 φ a ^ p381 ^ k := by
  rw [fq2_pow hc, frob2, hT.odd]
  by_cases hk : k % 2 = 1
  · simp only [hk, decide_true, if_true]
    ext
    · simp [val2]
    · simp [val2, h.mul, h.neg, h.one]
  · simp only [hk, decide_false, if_false]
    ext
    · simp [val2]
    · simp [val2, h.mul, h.one]

theorem val12_frob (h : Models φ) {T : FrobTable R} {k : Nat} (hT : TableFor φ T k) (f : Fp12 R) : val12 φ (frob12 T f) = val12 φ f ^ p381 ^ k := by
  have h2 := models2 h
  have e' : val12 φ f = ofCoeffs (val2 φ f.c0.c0) (val2 φ f.c1.c0) (val2 φ f.c0.c1) (val2 φ f.c1.c1) (val2 φ f.c0.c2) (val2 φ f.c1.c2) := rfl
  have c3 : val2 φ T.c3 = val2 φ T.c6 ^ 2 := by
    have h6 := six_dvd k
    rw [hT.c3, hT.c6, ← pow_mul]
    generalize p381 ^ k = n at *
    exact congrArg _ (by omega)
  have c23 : val2 φ T.c23 = val2 φ T.c6 ^ 4 := by
    have h6 := six_dvd k
    rw [hT.c23, hT.c6, ← pow_mul]
    generalize p381 ^ k = n at *
    exact congrArg _ (by omega)
  rw [e', ofCoeffs_frob hc k hT.c6]
  simp only [val12, val6, frob12, frob6, h2.mul, val2_frob hc h hT, c3, c23, ofCoeffs]
  congr 3
  congr 1 <;> ring

/-- The final exponentiation in coordinates is the final exponentiation. -/
theorem val12_finalExponentiation (h : Models φ) {T1 T2 : FrobTable R} (hT1 : TableFor φ T1 1) (hT2 : TableFor φ T2 2) (f : Fp12 R) :
    (finalExponentiation blsX T1 T2 f).map (val12 φ) = GS.finalExponentiation (val12 φ f) := by
  have h12 := models12 h
  by_cases hf : val12 φ f = 0
  · rw [finalExponentiation, GS.finalExponentiation, if_pos hf]
    dsimp only
    rw [h12.inverse_zero _ hf]; rfl
  · obtain ⟨i, hi, hi'⟩ := h12.inverse _ hf
    rw [finalExponentiation, GS.finalExponentiation, if_neg hf]
    dsimp only
    rw [hi, Option.map_some, Option.map_some]
    refine congrArg some ?_
    have star1 : ∀ g, val12 φ (conj g) = star (val12 φ g) := val12_conj h
    have ex : ∀ g, InCyc (val12 φ g) → val12 φ (expByX blsX g) = GS.expByX (val12 φ g) := fun g hg => by
      rw [expByX, star1, val12_cyclotomicExp hc h g hg, GS.expByX]
    have exC : ∀ x : Fq12 S, InCyc x → InCyc (GS.expByX x) := fun x hx => by
      rw [GS.expByX]; exact (hx.pow _).star hc
    have fr1 : ∀ g, val12 φ (frob12 T1 g) = frobeniusMap (val12 φ g) 1 := val12_frob hc h hT1
    have fr2 : ∀ g, val12 φ (frob12 T2 g) = frobeniusMap (val12 φ g) 2 := val12_frob hc h hT2
    have frC : ∀ (x : Fq12 S) k, InCyc x → InCyc (frobeniusMap x k) := fun x k hx => hx.pow _
    generalize hr : frob12 T2 (conj f * i) * (conj f * i) = r
    have hr' : val12 φ r = frobeniusMap (star (val12 φ f) * (val12 φ f)⁻¹) 2 * (star (val12 φ f) * (val12 φ f)⁻¹) := by
      rw [← hr, h12.mul, fr2, h12.mul, star1, hi']
    have hrC : InCyc (val12 φ r) := by rw [hr']; exact easy_cyc hc hf
    rw [← hr']
    have sq : val12 φ (cyclotomicSquare r) = val12 φ r * val12 φ r := by rw [val12_cyclotomicSquare hc h _ hrC, pow_two]
    -- the values of y1 in turn
    generalize hy1 : expByX blsX r * conj r = y1
    have e1 : val12 φ y1 = GS.expByX (val12 φ r) * star (val12 φ r) := by rw [← hy1, h12.mul, ex _ hrC, star1]
    have C1 : InCyc (val12 φ y1) := by rw [e1]; exact (exC _ hrC).mul (hrC.star hc)
    rw [← e1]
    generalize hy2 : conj y1 * expByX blsX y1 = y2
    have e2 : val12 φ y2 = star (val12 φ y1) * GS.expByX (val12 φ y1) := by rw [← hy2, h12.mul, ex _ C1, star1]
    have C2 : InCyc (val12 φ y2) := by rw [e2]; exact (C1.star hc).mul (exC _ C1)
    rw [← e2]
    generalize hy3 : frob12 T1 y2 * expByX blsX y2 = y3
    have e3 : val12 φ y3 = frobeniusMap (val12 φ y2) 1 * GS.expByX (val12 φ y2) := by rw [← hy3, h12.mul, ex _ C2, fr1]
    have C3 : InCyc (val12 φ y3) := by rw [e3]; exact (frC _ _ C2).mul (exC _ C2)
    rw [← e3]
    have e4 := ex _ C3
    have C4 := exC _ C3
    rw [← e4] at C4
    rw [h12.mul, h12.mul, sq, h12.mul, h12.mul, star1, fr2, ex _ C4, e4]

end

end GS.Tower
