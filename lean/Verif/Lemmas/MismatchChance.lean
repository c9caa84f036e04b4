import Verif.Lemmas.Mismatch

/-! The part of the randomness for which a proof about other values is accepted. -/

set_option linter.unusedSectionVars false
set_option linter.unusedVariables false

open scoped BigOperators

namespace GS
variable {F G1 G2 GT : Type} [Field F] [AddCommGroup G1] [Module F G1] [AddCommGroup G2] [Module F G2]
  [AddCommGroup GT] [Module F GT]

open Classical in
theorem chance_le_one [Fintype F] {α : Type} {N m n p q : Nat} (hN : N = m * p + n * q + q * p)
    {call : List F → Res (α × List F)} {P : α → Prop} (Q : Rands F m n p q → Prop)
    (h : ∀ (r : Rands F m n p q) a rest, call (flat r) = .ok (a, rest) → P a → Q r)
    (hQ : (Finset.univ.filter Q).card * Fintype.card F ≤ Fintype.card (Rands F m n p q)) :
    chance N call P ≤ 1 / Fintype.card F := by
  obtain ⟨E, hE⟩ := exists_tapeEquiv (F := F) hN
  have h1 : chance N call P ≤ 𝔼 r : Rands F m n p q, if Q r then (1 : ℝ) else 0 := by
    rw [chance, ← Fintype.expect_equiv E (fun r => if ∃ a rest, call (List.ofFn (E r)) = .ok (a, rest) ∧ P a then (1 : ℝ) else 0) _
      (fun r => rfl)]
    refine Finset.expect_le_expect fun r _ => ?_
    rw [hE]
    by_cases hr : ∃ a rest, call (flat r) = .ok (a, rest) ∧ P a
    · obtain ⟨a, rest, ha, hP⟩ := hr
      rw [if_pos ⟨a, rest, ha, hP⟩, if_pos (h r a rest ha hP)]
    · rw [if_neg hr]
      split_ifs <;> norm_num
  refine h1.trans ?_
  rw [Fintype.expect_eq_sum_div_card, Finset.sum_boole]
  have hF : (0 : ℝ) < Fintype.card F := by exact_mod_cast Fintype.card_pos
  have hR : (0 : ℝ) < Fintype.card (Rands F m n p q) := by exact_mod_cast Fintype.card_pos
  rw [div_le_div_iff₀ hR hF, one_mul]
  exact_mod_cast hQ

section
variable {A B C : Type} [AddCommGroup A] [Module F A] [AddCommGroup B] [Module F B] [AddCommGroup C] [Module F C] {m n p q : Nat}

open Classical in
/-- A nonconstant affine condition holds for a small part of the randomness. -/
theorem affine_card [Fintype F] (f : A →ₗ[F] B →ₗ[F] C) (a : Fin n → A) (b : Fin m → B) (u : Fin p → A) (v : Fin q → B)
    (x : Fin m → A) (y : Fin n → B) (k0 : Fin p) (l0 : Fin q) (τ : C)
    (ha : ∀ j, a j ≠ 0 → f (a j) (v l0) ≠ 0) (hb : ∀ i, b i ≠ 0 → f (u k0) (b i) ≠ 0) (h : ¬ (a = 0 ∧ b = 0)) :
    (Finset.univ.filter fun r : Rands F m n p q => lhsOf f a b 0 (comX u x r) (comY v y r) = τ).card * Fintype.card F ≤
      Fintype.card (Rands F m n p q) := by
  by_cases hb0 : b = 0
  · obtain ⟨j, hj⟩ : ∃ j, a j ≠ 0 := by
      by_contra hn; push Not at hn; exact h ⟨funext hn, hb0⟩
    refine card_of_shift (shiftS j l0) _ fun r s s' h1 h2 => ?_
    rw [comX_shiftS, comY_shiftS, lhsOf_right] at h1 h2
    simp only [map_smul, Pi.zero_apply, zero_smul, Finset.sum_const_zero, add_zero] at h1 h2
    exact unique_shift (ha j hj) h1 h2
  · obtain ⟨i, hi⟩ : ∃ i, b i ≠ 0 := by
      by_contra hn; push Not at hn; exact hb0 (funext hn)
    refine card_of_shift (shiftR i k0) _ fun r s s' h1 h2 => ?_
    rw [comX_shiftR, comY_shiftR, lhsOf_left] at h1 h2
    simp only [map_smul, LinearMap.smul_apply, Pi.zero_apply, zero_smul, Finset.sum_const_zero, add_zero] at h1 h2
    exact unique_shift (hb i hi) h1 h2

end

theorem defect_lhsOf (e : G1 →ₗ[F] G2 →ₗ[F] GT) {m n p q : Nat} (γ : Fin m → Fin n → F) (u : Fin p → Com G1) (v : Fin q → Com G2)
    (X X' : Fin m → Com G1) (Y Y' : Fin n → Com G2) (r : Rands F m n p q) :
    defect e (matOf γ) (List.ofFn (comX u X r)) (List.ofFn X) (List.ofFn X') (List.ofFn (comY v Y r)) (List.ofFn Y) (List.ofFn Y') =
      lhsOf (ComT.pairL e) (fun j => ∑ i, γ i j • (X i - X' i)) (fun i => ∑ j, γ i j • (Y j - Y' j)) 0 (comX u 0 r) (comY v 0 r) := by
  rw [defect, diffs_ofFn, diffs_ofFn, diffs_ofFn, diffs_ofFn, crossSum_ofFn, crossSum_ofFn]
  have hp : ∀ (x : Com G1) (y : Com G2), ComT.pairing e x y = ComT.pairL e x y := fun _ _ => rfl
  simp only [hp, lhsOf, comX, comY, Pi.sub_apply, Pi.zero_apply, zero_add, add_sub_cancel_left, zero_smul, Finset.sum_const_zero, add_zero]
  rw [add_comm]
  congr 1
  · rw [Finset.sum_comm]
    refine Finset.sum_congr rfl fun j _ => ?_
    generalize (∑ l, r.2.1 j l • v l) = d
    simp only [map_sum, map_smul, LinearMap.sum_apply, LinearMap.smul_apply]
  · refine Finset.sum_congr rfl fun i _ => ?_
    generalize (∑ k, r.1 i k • u k) = c
    simp only [map_sum, map_smul]

theorem emb_comb {G : Type} [AddCommGroup G] [Module F G] {m : Nat} (c : Fin m → F) (x x' : Fin m → G) :
    ∑ i, c i • ((⟨0, x i⟩ : Com G) - ⟨0, x' i⟩) = ⟨0, ∑ i, c i • (x i - x' i)⟩ := by
  have h : ∀ i, c i • ((⟨0, x i⟩ : Com G) - ⟨0, x' i⟩) = ⟨0, c i • (x i - x' i)⟩ := by
    intro i; ext <;> simp
  simp only [h]
  have := map_sum (i1 (F := F) (G1 := G)) (fun i => c i • (x i - x' i)) Finset.univ
  exact this.symm

theorem smul_comb {G : Type} [AddCommGroup G] [Module F G] {m : Nat} (w : G) (c : Fin m → F) (x x' : Fin m → F) :
    ∑ i, c i • (x i • w - x' i • w) = (∑ i, c i • (x i - x' i)) • w := by
  simp only [← sub_smul, Finset.sum_smul, smul_assoc]

end GS
