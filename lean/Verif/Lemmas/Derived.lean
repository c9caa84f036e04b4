import Verif.Spec.Derived
import Verif.Lemmas.Identity
import Verif.Lemmas.Verify
import Mathlib.Algebra.Module.BigOperators
import Mathlib.Tactic.Abel

/-! Linear algebra of combinations of variables. -/

namespace GS
variable {F V W A B C : Type} [Field F] [AddCommGroup V] [Module F V] [AddCommGroup W] [Module F W] [AddCommGroup A] [Module F A]
  [AddCommGroup B] [Module F B] [AddCommGroup C] [Module F C] {k l m n p q : Nat}

theorem affine_map (f : V →ₗ[F] W) (P : _root_.Matrix (Fin k) (Fin m) F) (δ : Fin k → V) (x : Fin m → V) (i : Fin k) :
    f (affine P δ x i) = affine P (fun i => f (δ i)) (fun j => f (x j)) i := by
  simp [affine, map_sum]

theorem pull_map (f : V →ₗ[F] W) (P : _root_.Matrix (Fin k) (Fin m) F) (γ : _root_.Matrix (Fin k) (Fin l) F) (ε : Fin l → V)
    (b : Fin k → V) (i : Fin m) : f (pull P γ ε b i) = pull P γ (fun i => f (ε i)) (fun j => f (b j)) i := by
  simp [pull, map_sum]

/-- What a variable is paired with. -/
theorem pull_row (P : _root_.Matrix (Fin k) (Fin m) F) (Q : _root_.Matrix (Fin l) (Fin n) F) (γ : _root_.Matrix (Fin k) (Fin l) F)
    (ε : Fin l → V) (b : Fin k → V) (d : Fin n → V) (i : Fin m) :
    pull P γ ε b i + ∑ j, (P.transpose * γ * Q) i j • d j = ∑ i', P i' i • (b i' + ∑ j, γ i' j • affine Q ε d j) := by
  have h : ∑ j, (P.transpose * γ * Q) i j • d j = ∑ i', P i' i • ∑ j, γ i' j • ∑ j', Q j j' • d j' := by
    simp only [_root_.Matrix.mul_apply, _root_.Matrix.transpose_apply, Finset.sum_mul, Finset.sum_smul, Finset.smul_sum, smul_smul]
    rw [Finset.sum_comm]
    simp_rw [Finset.sum_comm (s := (Finset.univ : Finset (Fin n)))]
    rw [Finset.sum_comm]
    simp only [mul_assoc]
  rw [h, pull, ← Finset.sum_add_distrib]
  refine Finset.sum_congr rfl fun i' _ => ?_
  rw [← smul_add]
  congr 1
  simp only [affine, smul_add, Finset.sum_add_distrib]
  abel

theorem pull_col (P : _root_.Matrix (Fin k) (Fin m) F) (Q : _root_.Matrix (Fin l) (Fin n) F) (γ : _root_.Matrix (Fin k) (Fin l) F)
    (δ : Fin k → V) (a : Fin l → V) (c : Fin m → V) (j : Fin n) :
    pull Q γ.transpose δ a j + ∑ i, (P.transpose * γ * Q) i j • c i = ∑ j', Q j' j • (a j' + ∑ i, γ i j' • affine P δ c i) := by
  have := pull_row Q P γ.transpose δ a c j
  simp only [_root_.Matrix.transpose_apply] at this
  rw [← this]
  congr 1
  refine Finset.sum_congr rfl fun i _ => ?_
  congr 1
  rw [← _root_.Matrix.transpose_apply (P.transpose * γ * Q), _root_.Matrix.transpose_mul, _root_.Matrix.transpose_mul,
    _root_.Matrix.transpose_transpose, _root_.Matrix.mul_assoc]

theorem pair_affine (f : A →ₗ[F] B →ₗ[F] C) (P : _root_.Matrix (Fin k) (Fin m) F) (δ c) (q : Fin k → B) :
    ∑ i, f (affine P δ c i) (q i) = ∑ i, f (c i) (∑ i', P i' i • q i') + ∑ i, f (δ i) (q i) := by
  simp only [affine, map_add, map_sum, map_smul, LinearMap.add_apply, LinearMap.sum_apply, LinearMap.smul_apply, Finset.sum_add_distrib]
  rw [Finset.sum_comm]

theorem pair_affine' (f : A →ₗ[F] B →ₗ[F] C) (Q : _root_.Matrix (Fin l) (Fin n) F) (ε d) (a : Fin l → A) :
    ∑ j, f (a j) (affine Q ε d j) = ∑ j, f (∑ j', Q j' j • a j') (d j) + ∑ j, f (a j) (ε j) := by
  simpa using pair_affine f.flip Q ε d a

theorem equ_group (f : A →ₗ[F] B →ₗ[F] C) (a : Fin n → A) (x : Fin m → A) (b : Fin m → B) (y : Fin n → B) (γ : _root_.Matrix (Fin m) (Fin n) F) :
    (∑ j, f (a j) (y j)) + (∑ i, f (x i) (b i)) + ∑ i, ∑ j, γ i j • f (x i) (y j) =
      ∑ j, f (a j) (y j) + ∑ i, f (x i) (b i + ∑ j, γ i j • y j) := by
  simp only [map_add, map_sum, map_smul, Finset.sum_add_distrib]
  abel

theorem equ_group' (f : A →ₗ[F] B →ₗ[F] C) (a : Fin n → A) (x : Fin m → A) (b : Fin m → B) (y : Fin n → B) (γ : _root_.Matrix (Fin m) (Fin n) F) :
    (∑ j, f (a j) (y j)) + (∑ i, f (x i) (b i)) + ∑ i, ∑ j, γ i j • f (x i) (y j) =
      ∑ i, f (x i) (b i) + ∑ j, f (a j + ∑ i, γ i j • x i) (y j) := by
  simp only [map_add, map_sum, map_smul, Finset.sum_add_distrib, LinearMap.add_apply, LinearMap.sum_apply, LinearMap.smul_apply]
  rw [Finset.sum_comm]
  abel

/-- The left-hand side at combinations of the variables. -/
theorem equ_along (f : A →ₗ[F] B →ₗ[F] C) (P : _root_.Matrix (Fin k) (Fin m) F) (Q : _root_.Matrix (Fin l) (Fin n) F)
    (γ : _root_.Matrix (Fin k) (Fin l) F) (δ : Fin k → A) (ε : Fin l → B) (a : Fin l → A) (b : Fin k → B) (c : Fin m → A) (d : Fin n → B) :
    (∑ j, f (a j) (affine Q ε d j)) + (∑ i, f (affine P δ c i) (b i)) + ∑ i, ∑ j, γ i j • f (affine P δ c i) (affine Q ε d j) =
      ((∑ j, f (pull Q γ.transpose δ a j) (d j)) + (∑ i, f (c i) (pull P γ ε b i)) +
        ∑ i, ∑ j, (P.transpose * γ * Q) i j • f (c i) (d j)) +
      ((∑ j, f (a j) (ε j)) + (∑ i, f (δ i) (b i)) + ∑ i, ∑ j, γ i j • f (δ i) (ε j)) := by
  rw [equ_group, equ_group, pair_affine f P δ c fun i => b i + ∑ j, γ i j • affine Q ε d j]
  simp only [← pull_row]
  have h := equ_group' f a δ b (fun j => affine Q ε d j) γ
  rw [equ_group, pair_affine' f Q ε d fun j => a j + ∑ i, γ i j • δ i] at h
  rw [add_left_comm, h]
  have h' := equ_group' f a δ b ε γ
  rw [h']
  have : ∀ j, ∑ j', Q j' j • (a j' + ∑ i, γ i j' • δ i) = pull Q γ.transpose δ a j := fun j => rfl
  simp only [this]
  abel

theorem piVal_along (P : _root_.Matrix (Fin k) (Fin m) F) (Q : _root_.Matrix (Fin l) (Fin n) F) (γ : _root_.Matrix (Fin k) (Fin l) F)
    (ε : Fin l → B) (b : Fin k → B) (y : Fin n → B) (R : _root_.Matrix (Fin m) (Fin p) F) (S : _root_.Matrix (Fin n) (Fin q) F)
    (T : Fin q → Fin p → F) (v : Fin q → B) :
    piVal b (affine Q ε y) (fun i j => γ i j) (fun i κ => (P * R) i κ) (fun j κ => (Q * S) j κ) T v =
      piVal (pull P γ ε b) y (fun i j => (P.transpose * γ * Q) i j) (fun i κ => R i κ) (fun j κ => S j κ) T v := by
  funext κ
  rw [piVal_eq, piVal_eq]
  congr 1
  have h : ∀ j, affine Q ε y j + ∑ κ, (Q * S) j κ • v κ = affine Q ε (fun j => y j + ∑ κ, S j κ • v κ) j := by
    intro j
    simp only [affine, _root_.Matrix.mul_apply, Finset.sum_smul, Finset.smul_sum, smul_smul, smul_add, Finset.sum_add_distrib]
    rw [Finset.sum_comm]
    abel
  simp only [h, pull_row]
  simp only [_root_.Matrix.mul_apply, Finset.sum_smul, Finset.smul_sum (s := (Finset.univ : Finset (Fin k)))]
  rw [Finset.sum_comm]
  simp only [smul_smul, mul_comm]

theorem thetaVal_along (P : _root_.Matrix (Fin k) (Fin m) F) (Q : _root_.Matrix (Fin l) (Fin n) F) (γ : _root_.Matrix (Fin k) (Fin l) F)
    (δ : Fin k → A) (a : Fin l → A) (x : Fin m → A) (S : _root_.Matrix (Fin n) (Fin q) F) (T : Fin q → Fin p → F) (u : Fin p → A) :
    thetaVal a (affine P δ x) (fun i j => γ i j) (fun j κ => (Q * S) j κ) T u =
      thetaVal (pull Q γ.transpose δ a) x (fun i j => (P.transpose * γ * Q) i j) (fun j κ => S j κ) T u := by
  funext κ
  have h : ∀ {M N : Nat} (a : Fin N → A) (x : Fin M → A) (γ : Fin M → Fin N → F) (S : Fin N → Fin q → F),
      thetaVal a x γ S T u κ = ∑ j, S j κ • (a j + ∑ i, γ i j • x i) + ∑ κ', T κ κ' • u κ' := by
    intro M N a x γ S
    unfold thetaVal
    congr 1
    simp only [smul_add, Finset.sum_add_distrib, Finset.sum_smul, Finset.smul_sum, smul_smul]
    rw [Finset.sum_comm]
  rw [h, h]
  congr 1
  simp only [pull_col]
  simp only [_root_.Matrix.mul_apply, Finset.sum_smul, Finset.smul_sum (s := (Finset.univ : Finset (Fin l)))]
  rw [Finset.sum_comm]
  simp only [smul_smul, mul_comm]

end GS
