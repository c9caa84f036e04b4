import Mathlib.LinearAlgebra.BilinearMap
import Mathlib.Algebra.BigOperators.Fin
import Mathlib.Algebra.Module.BigOperators
import Mathlib.Tactic.Abel
import Mathlib.Tactic.Module

/-! The bilinear identity behind completeness, over abstract modules. -/

namespace GS
variable {F A B C : Type} [Field F] [AddCommGroup A] [Module F A] [AddCommGroup B] [Module F B]
  [AddCommGroup C] [Module F C] (f : A →ₗ[F] B →ₗ[F] C)

section
variable {m n p q : Nat}

/-- The `k`-th element of `pi`. -/
def piVal (b : Fin m → B) (y : Fin n → B) (γ : Fin m → Fin n → F) (R : Fin m → Fin p → F)
    (S : Fin n → Fin q → F) (T : Fin q → Fin p → F) (v : Fin q → B) (k : Fin p) : B :=
  (∑ i, R i k • b i) + (∑ j, (∑ i, R i k * γ i j) • y j) +
    ∑ l, ((∑ j, (∑ i, R i k * γ i j) * S j l) + -T l k) • v l

/-- The `l`-th element of `theta`. -/
def thetaVal (a : Fin n → A) (x : Fin m → A) (γ : Fin m → Fin n → F)
    (S : Fin n → Fin q → F) (T : Fin q → Fin p → F) (u : Fin p → A) (l : Fin q) : A :=
  (∑ j, S j l • a j) + (∑ i, (∑ j, S j l * γ i j) • x i) + ∑ k, T l k • u k

theorem piVal_eq (b : Fin m → B) (y : Fin n → B) (γ : Fin m → Fin n → F) (R : Fin m → Fin p → F)
    (S : Fin n → Fin q → F) (T : Fin q → Fin p → F) (v : Fin q → B) (k : Fin p) :
    piVal b y γ R S T v k =
      (∑ i, R i k • (b i + ∑ j, γ i j • (y j + ∑ l, S j l • v l))) - ∑ l, T l k • v l := by
  unfold piVal
  have h1 : (∑ l, ((∑ j, (∑ i, R i k * γ i j) * S j l) + -T l k) • v l) =
      (∑ i, R i k • ∑ j, γ i j • ∑ l, S j l • v l) - ∑ l, T l k • v l := by
    simp only [← sub_eq_add_neg, sub_smul, Finset.sum_sub_distrib]
    congr 1
    simp only [Finset.sum_smul, Finset.smul_sum, Finset.sum_mul, smul_smul]
    rw [Finset.sum_comm]
    calc _ = ∑ j, ∑ i, ∑ l, (R i k * γ i j * S j l) • v l :=
          Finset.sum_congr rfl fun j _ => by rw [Finset.sum_comm]
      _ = _ := by
          rw [Finset.sum_comm]
          simp only [mul_assoc]
  have h2 : (∑ j, (∑ i, R i k * γ i j) • y j) = ∑ i, R i k • ∑ j, γ i j • y j := by
    simp only [Finset.sum_smul, Finset.smul_sum, smul_smul]
    rw [Finset.sum_comm]
  rw [h1, h2]
  simp only [smul_add, Finset.sum_add_distrib]
  abel

theorem thetaVal_eq (a : Fin n → A) (x : Fin m → A) (γ : Fin m → Fin n → F)
    (S : Fin n → Fin q → F) (T : Fin q → Fin p → F) (u : Fin p → A) (l : Fin q) :
    thetaVal a x γ S T u l = (∑ j, S j l • (a j + ∑ i, γ i j • x i)) + ∑ k, T l k • u k := by
  unfold thetaVal
  have h2 : (∑ i, (∑ j, S j l * γ i j) • x i) = ∑ j, S j l • ∑ i, γ i j • x i := by
    simp only [Finset.sum_smul, Finset.smul_sum, smul_smul]
    rw [Finset.sum_comm]
  rw [h2]
  simp only [smul_add, Finset.sum_add_distrib]

/-- The identity behind completeness: the left-hand side of the verification equation equals
the equation evaluated at the linear images plus the two proof terms. -/
theorem gs_identity (a x : _) (b y : _) (γ : Fin m → Fin n → F) (R : Fin m → Fin p → F)
    (S : Fin n → Fin q → F) (T : Fin q → Fin p → F) (u : Fin p → A) (v : Fin q → B)
    (c : Fin m → A) (d : Fin n → B)
    (hc : ∀ i, c i = x i + ∑ k, R i k • u k) (hd : ∀ j, d j = y j + ∑ l, S j l • v l) :
    (∑ j, f (a j) (d j)) + (∑ i, f (c i) (b i)) + (∑ i, f (c i) (∑ j, γ i j • d j)) =
      ((∑ j, f (a j) (y j)) + (∑ i, f (x i) (b i)) + ∑ i, ∑ j, γ i j • f (x i) (y j)) +
        (∑ k, f (u k) (piVal b y γ R S T v k)) + ∑ l, f (thetaVal a x γ S T u l) (v l) := by
  have hpi : (∑ k, f (u k) (piVal b y γ R S T v k)) =
      (∑ i, f (c i - x i) (b i + ∑ j, γ i j • d j)) - ∑ k, ∑ l, T l k • f (u k) (v l) := by
    obtain ⟨Bf, hBf⟩ : ∃ Bf : Fin m → B, ∀ i, b i + ∑ j, γ i j • d j = Bf i := ⟨_, fun _ => rfl⟩
    simp only [piVal_eq, ← hd, hBf, map_sub, map_sum, map_smul, Finset.sum_sub_distrib]
    congr 1
    rw [Finset.sum_comm]
    refine Finset.sum_congr rfl fun i _ => ?_
    rw [← map_sub, hc i, add_sub_cancel_left]
    simp only [map_sum, map_smul, LinearMap.sum_apply, LinearMap.smul_apply]
  have hth : (∑ l, f (thetaVal a x γ S T u l) (v l)) =
      (∑ j, f (a j + ∑ i, γ i j • x i) (d j - y j)) + ∑ k, ∑ l, T l k • f (u k) (v l) := by
    obtain ⟨Af, hAf⟩ : ∃ Af : Fin n → A, ∀ j, a j + ∑ i, γ i j • x i = Af j := ⟨_, fun _ => rfl⟩
    simp only [thetaVal_eq, hAf]
    simp only [map_add, map_sum, map_smul, LinearMap.add_apply, LinearMap.sum_apply,
      LinearMap.smul_apply, Finset.sum_add_distrib]
    congr 1
    · rw [Finset.sum_comm]
      refine Finset.sum_congr rfl fun j _ => ?_
      rw [hd j, add_sub_cancel_left]
      simp only [map_sum, map_smul]
    · rw [Finset.sum_comm]
  rw [hpi, hth]
  have e1 : (∑ i, f (c i - x i) (b i + ∑ j, γ i j • d j)) =
      (∑ i, f (c i) (b i)) + (∑ i, f (c i) (∑ j, γ i j • d j)) - (∑ i, f (x i) (b i))
        - ∑ i, ∑ j, γ i j • f (x i) (d j) := by
    simp only [map_sub, LinearMap.sub_apply, map_add, Finset.sum_sub_distrib, Finset.sum_add_distrib, map_sum, map_smul, smul_sub]
    abel
  have e2 : (∑ j, f (a j + ∑ i, γ i j • x i) (d j - y j)) =
      (∑ j, f (a j) (d j)) - (∑ j, f (a j) (y j)) + (∑ i, ∑ j, γ i j • f (x i) (d j))
        - ∑ i, ∑ j, γ i j • f (x i) (y j) := by
    simp only [map_sub, map_add, map_sum, map_smul, LinearMap.add_apply, LinearMap.sum_apply, LinearMap.smul_apply,
      Finset.sum_sub_distrib, Finset.sum_add_distrib]
    rw [Finset.sum_comm (f := fun j i => γ i j • f (x i) (d j)), Finset.sum_comm (f := fun j i => γ i j • f (x i) (y j))]
    abel
  rw [e1, e2]
  abel

end
end GS
