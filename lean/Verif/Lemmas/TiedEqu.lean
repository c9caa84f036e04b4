import Verif.Lemmas.SimKey
import Verif.Lemmas.Complete
import Mathlib.Algebra.BigOperators.Ring.Finset
import Mathlib.Data.Fintype.BigOperators
import Mathlib.Algebra.Field.Basic

/-! Counting the randomness for which a commitment satisfies a given nontrivial relation. -/

set_option linter.unusedSectionVars false
set_option linter.unusedVariables false

open scoped BigOperators
open scoped Classical

namespace GS

/-- If every orbit of a family of bijections meets `P` at most once, `P` is rare. -/
theorem card_of_shift {F X : Type} [Fintype F] [Fintype X] (sh : F → X ≃ X) (P : X → Prop) [DecidablePred P]
    (h : ∀ x s s', P (sh s x) → P (sh s' x) → s = s') :
    (Finset.univ.filter P).card * Fintype.card F ≤ Fintype.card X := by
  have h1 : ∑ x : X, (Finset.univ.filter fun s => P (sh s x)).card ≤ Fintype.card X := by
    calc _ ≤ ∑ x : X, 1 := Finset.sum_le_sum fun x _ => Finset.card_le_one.mpr fun s hs s' hs' =>
            h x s s' (Finset.mem_filter.mp hs).2 (Finset.mem_filter.mp hs').2
      _ = _ := by simp
  have h2 : ∑ x : X, (Finset.univ.filter fun s => P (sh s x)).card = Fintype.card F * (Finset.univ.filter P).card := by
    simp only [Finset.card_filter]
    rw [Finset.sum_comm]
    have : ∀ s : F, ∑ x : X, (if P (sh s x) then 1 else 0) = ∑ x : X, if P x then 1 else 0 := fun s =>
      (sh s).sum_comp (fun x => if P x then 1 else 0)
    simp [this]
  rw [h2] at h1
  rwa [mul_comm]

variable {F A B C : Type} [Field F] [Fintype F] [AddCommGroup A] [Module F A] [AddCommGroup B] [Module F B]
  [AddCommGroup C] [Module F C] {m n p q : Nat}

/-- Add `s` to one entry of the first matrix. -/
def shiftR (i : Fin m) (k : Fin p) (s : F) : Rands F m n p q ≃ Rands F m n p q :=
  (Equiv.addRight (Pi.single i (Pi.single k s))).prodCongr (Equiv.refl _)

/-- Add `s` to one entry of the second matrix. -/
def shiftS (j : Fin n) (l : Fin q) (s : F) : Rands F m n p q ≃ Rands F m n p q :=
  (Equiv.refl _).prodCongr ((Equiv.addRight (Pi.single j (Pi.single l s))).prodCongr (Equiv.refl _))

theorem sum_single (u : Fin p → A) (R : Fin m → Fin p → F) (x : Fin m → A) (i0 : Fin m) (k0 : Fin p) (s : F) (i : Fin m) :
    x i + ∑ k, (R + Pi.single i0 (Pi.single k0 s) : Fin m → Fin p → F) i k • u k =
      (x i + ∑ k, R i k • u k) + (Pi.single i0 (s • u k0) : Fin m → A) i := by
  simp only [Pi.add_apply, add_smul, Finset.sum_add_distrib]
  rw [add_assoc]
  congr 2
  by_cases h : i = i0
  · subst h
    simp only [Pi.single_eq_same]
    rw [Finset.sum_eq_single k0]
    · simp
    · intro k _ hk; simp [hk]
    · simp
  · simp [h]

/-- The left-hand side of an equation. -/
def lhsOf (f : A →ₗ[F] B →ₗ[F] C) (a : Fin n → A) (b : Fin m → B) (γ : Fin m → Fin n → F) (c : Fin m → A) (d : Fin n → B) : C :=
  (∑ j, f (a j) (d j)) + (∑ i, f (c i) (b i)) + ∑ i, ∑ j, γ i j • f (c i) (d j)

variable (f : A →ₗ[F] B →ₗ[F] C) (a : Fin n → A) (b : Fin m → B) (γ : Fin m → Fin n → F)

theorem lhsOf_left (c : Fin m → A) (d : Fin n → B) (i0 : Fin m) (w : A) :
    lhsOf f a b γ (c + Pi.single i0 w) d = lhsOf f a b γ c d + (f w (b i0) + ∑ j, γ i0 j • f w (d j)) := by
  have h : ∀ g : Fin m → A →ₗ[F] C, ∑ i, g i ((c + Pi.single i0 w : Fin m → A) i) = ∑ i, g i (c i) + g i0 w := by
    intro g
    simp only [Pi.add_apply, map_add, Finset.sum_add_distrib]
    congr 1
    rw [Finset.sum_eq_single i0]
    · simp
    · intro i _ hi; simp [hi]
    · simp
  have h1 := h fun i => f.flip (b i)
  have h2 := h fun i => ∑ j, γ i j • f.flip (d j)
  simp only [LinearMap.flip_apply, LinearMap.sum_apply, LinearMap.smul_apply] at h1 h2
  rw [lhsOf, h1, h2, lhsOf]
  abel

theorem lhsOf_right (c : Fin m → A) (d : Fin n → B) (j0 : Fin n) (w : B) :
    lhsOf f a b γ c (d + Pi.single j0 w) = lhsOf f a b γ c d + (f (a j0) w + ∑ i, γ i j0 • f (c i) w) := by
  have h : ∀ g : Fin n → B →ₗ[F] C, ∑ i, g i ((d + Pi.single j0 w : Fin n → B) i) = ∑ i, g i (d i) + g j0 w := by
    intro g
    simp only [Pi.add_apply, map_add, Finset.sum_add_distrib]
    congr 1
    rw [Finset.sum_eq_single j0]
    · simp
    · intro i _ hi; simp [hi]
    · simp
  have h1 := h fun j => f (a j)
  have h2 := h fun j => ∑ i, γ i j • f (c i)
  simp only [LinearMap.sum_apply, LinearMap.smul_apply] at h1 h2
  rw [lhsOf, h1, Finset.sum_comm, h2, lhsOf, Finset.sum_comm (f := fun i j => γ i j • f (c i) (d j))]
  abel

theorem unique_shift {z w : C} {s s' : F} {τ : C} (hw : w ≠ 0) (h : z + s • w = τ) (h' : z + s' • w = τ) : s = s' := by
  have : (s - s') • w = 0 := by
    rw [sub_smul, sub_eq_zero]
    exact add_left_cancel (h.trans h'.symm)
  rcases smul_eq_zero.mp this with h | h
  · exact sub_eq_zero.mp h
  · exact absurd h hw

/-- The commitments computed with randomness `r`. -/
def comX (u : Fin p → A) (x : Fin m → A) (r : Rands F m n p q) : Fin m → A := fun i => x i + ∑ k, r.1 i k • u k

/-- The commitments computed with randomness `r`. -/
def comY (v : Fin q → B) (y : Fin n → B) (r : Rands F m n p q) : Fin n → B := fun j => y j + ∑ l, r.2.1 j l • v l

theorem comX_shiftR (u : Fin p → A) (x : Fin m → A) (i0 : Fin m) (k0 : Fin p) (s : F) (r : Rands F m n p q) :
    comX u x (shiftR i0 k0 s r) = comX u x r + Pi.single i0 (s • u k0) :=
  funext fun i => sum_single u r.1 x i0 k0 s i

theorem comY_shiftR (v : Fin q → B) (y : Fin n → B) (i0 : Fin m) (k0 : Fin p) (s : F) (r : Rands F m n p q) :
    comY v y (shiftR i0 k0 s r) = comY v y r := rfl

theorem comX_shiftS (u : Fin p → A) (x : Fin m → A) (j0 : Fin n) (l0 : Fin q) (s : F) (r : Rands F m n p q) :
    comX u x (shiftS j0 l0 s r) = comX u x r := rfl

theorem comY_shiftS (v : Fin q → B) (y : Fin n → B) (j0 : Fin n) (l0 : Fin q) (s : F) (r : Rands F m n p q) :
    comY v y (shiftS j0 l0 s r) = comY v y r + Pi.single j0 (s • v l0) :=
  funext fun j => sum_single v r.2.1 y j0 l0 s j

/-- A nontrivial relation holds for a small part of the randomness. -/
theorem relation_card (u : Fin p → A) (v : Fin q → B) (x : Fin m → A) (y : Fin n → B) (k0 : Fin p) (l0 : Fin q) (τ : C)
    (huv : f (u k0) (v l0) ≠ 0) (ha : ∀ j, a j ≠ 0 → f (a j) (v l0) ≠ 0) (hb : ∀ i, b i ≠ 0 → f (u k0) (b i) ≠ 0)
    (h : ¬ (a = 0 ∧ b = 0 ∧ γ = 0 ∧ τ = 0)) :
    (Finset.univ.filter fun r : Rands F m n p q => lhsOf f a b γ (comX u x r) (comY v y r) = τ).card * Fintype.card F ≤
      2 * Fintype.card (Rands F m n p q) := by
  by_cases hγ : γ = 0
  · subst hγ
    by_cases hb0 : b = 0
    · by_cases ha0 : a = 0
      · have : ∀ c d, lhsOf f a b 0 c d = 0 := by simp [lhsOf, ha0, hb0]
        have hτ : ¬ (0 : C) = τ := fun h' => h ⟨ha0, hb0, rfl, h'.symm⟩
        simp [this, hτ]
      · obtain ⟨j, hj⟩ : ∃ j, a j ≠ 0 := by
          by_contra hn; push Not at hn; exact ha0 (funext hn)
        refine le_trans (card_of_shift (shiftS j l0) _ fun r s s' h1 h2 => ?_) (by omega)
        rw [comX_shiftS, comY_shiftS, lhsOf_right] at h1 h2
        simp only [map_smul, Pi.zero_apply, zero_smul, Finset.sum_const_zero, add_zero] at h1 h2
        exact unique_shift (ha j hj) h1 h2
    · obtain ⟨i, hi⟩ : ∃ i, b i ≠ 0 := by
        by_contra hn; push Not at hn; exact hb0 (funext hn)
      refine le_trans (card_of_shift (shiftR i k0) _ fun r s s' h1 h2 => ?_) (by omega)
      rw [comX_shiftR, comY_shiftR, lhsOf_left] at h1 h2
      simp only [map_smul, LinearMap.smul_apply, Pi.zero_apply, zero_smul, Finset.sum_const_zero, add_zero] at h1 h2
      exact unique_shift (hb i hi) h1 h2
  · obtain ⟨i, j, hij⟩ : ∃ i j, γ i j ≠ 0 := by
      by_contra hn; push Not at hn; exact hγ (funext fun i => funext (hn i))
    let w : Rands F m n p q → C := fun r => f (a j) (v l0) + ∑ i, γ i j • f (comX u x r i) (v l0)
    have hw : ∀ (s : F) (r : Rands F m n p q), w (shiftR i k0 s r) = w r + s • (γ i j • f (u k0) (v l0)) := by
      intro s r
      simp only [w]
      have := lhsOf_left (n := 0) (F := F) f (fun j => j.elim0) (fun i => γ i j • v l0) (fun _ j => j.elim0) (comX u x r)
        (fun j => j.elim0) i (s • u k0)
      simp only [lhsOf, Finset.univ_eq_empty, Finset.sum_empty, Finset.sum_const_zero, add_zero, zero_add, map_smul,
        LinearMap.smul_apply] at this
      rw [comX_shiftR, this, smul_comm s, add_assoc]
    have h1 : (Finset.univ.filter fun r : Rands F m n p q =>
        lhsOf f a b γ (comX u x r) (comY v y r) = τ ∧ w r ≠ 0).card * Fintype.card F ≤ Fintype.card (Rands F m n p q) := by
      refine card_of_shift (shiftS (F := F) j l0) _ fun r s s' h1 h2 => ?_
      have hw' : ∀ s, w (shiftS j l0 s r) = w r := fun s => rfl
      rw [comX_shiftS, comY_shiftS, lhsOf_right, hw'] at h1 h2
      have e : ∀ s : F, f (a j) (s • v l0) + ∑ i, γ i j • f (comX u x r i) (s • v l0) = s • w r := by
        intro s
        simp only [w, map_smul, smul_add, Finset.smul_sum, smul_comm s]
      rw [e] at h1 h2
      exact unique_shift h1.2 h1.1 h2.1
    have h2 : (Finset.univ.filter fun r : Rands F m n p q => w r = 0).card * Fintype.card F ≤
        Fintype.card (Rands F m n p q) := by
      refine card_of_shift (shiftR (F := F) i k0) _ fun r s s' h1 h2 => ?_
      rw [hw] at h1 h2
      exact unique_shift (smul_ne_zero hij huv) h1 h2
    have h3 : (Finset.univ.filter fun r : Rands F m n p q => lhsOf f a b γ (comX u x r) (comY v y r) = τ) ⊆
        (Finset.univ.filter fun r : Rands F m n p q => lhsOf f a b γ (comX u x r) (comY v y r) = τ ∧ w r ≠ 0) ∪
        (Finset.univ.filter fun r : Rands F m n p q => w r = 0) := by
      intro r hr
      simp only [Finset.mem_union, Finset.mem_filter, Finset.mem_univ, true_and] at hr ⊢
      by_cases h : w r = 0
      · exact Or.inr h
      · exact Or.inl ⟨hr, h⟩
    have h4 := (Finset.card_le_card h3).trans (Finset.card_union_le _ _)
    calc _ ≤ _ := Nat.mul_le_mul_right _ h4
      _ ≤ _ := by rw [add_mul]; omega

end GS
