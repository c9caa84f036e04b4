import Verif.Lemmas.AnySound

/-! Equivalence of witnesses on arbitrary equivocal keys. -/

set_option linter.unusedSectionVars false
set_option linter.unusedVariables false

namespace GS

section core
variable {F A B : Type} [Field F] [AddCommGroup A] [Module F A] [AddCommGroup B] [Module F B] {m n p q : Nat}

/-- The change of the last block of randomness. -/
def shear (γ : Fin m → Fin n → F) (κ : Fin m → F) (b0 : F) (r : Fin p → F) (s : Fin q → F) (S : Fin n → Fin q → F)
    (l : Fin q) (k : Fin p) : F :=
  r k * (b0 * s l + ∑ i, ∑ j, κ i * γ i j * S j l)

/-- The change of randomness. -/
def changeRands (γ : Fin m → Fin n → F) (κ : Fin m → F) (lam : Fin n → F) (b0 : F) (r : Fin p → F) (s : Fin q → F) :
    Rands F m n p q ≃ Rands F m n p q where
  toFun x := (fun i k => x.1 i k - κ i * r k, fun j l => x.2.1 j l - lam j * s l,
    fun l k => x.2.2 l k - shear γ κ b0 r s (fun j l => x.2.1 j l - lam j * s l) l k)
  invFun x := (fun i k => x.1 i k + κ i * r k, fun j l => x.2.1 j l + lam j * s l,
    fun l k => x.2.2 l k + shear γ κ b0 r s x.2.1 l k)
  left_inv x := by simp
  right_inv x := by simp

theorem viewFn_equiv_any (u : Fin p → A) (v : Fin q → B) (r : Fin p → F) (s : Fin q → F) (Z : A) (W : B)
    (hr : ∑ k, r k • u k = Z) (hs : ∑ l, s l • v l = W) (α : Fin n → F) (ξ ξ' : Fin m → F) (β : Fin m → F)
    (η η' : Fin n → F) (γ : Fin m → Fin n → F)
    (h : (∑ j, α j * η j) + (∑ i, ξ i * β i) + ∑ i, ∑ j, γ i j * (ξ i * η j) =
      (∑ j, α j * η' j) + (∑ i, ξ' i * β i) + ∑ i, ∑ j, γ i j * (ξ' i * η' j)) :
    ∃ φ : Rands F m n p q ≃ Rands F m n p q, ∀ x,
      viewFn u v (fun j => α j • Z) (fun i => ξ i • Z) (fun i => β i • W) (fun j => η j • W) γ x =
        viewFn u v (fun j => α j • Z) (fun i => ξ' i • Z) (fun i => β i • W) (fun j => η' j • W) γ (φ x) := by
  obtain ⟨b0, hb0⟩ : ∃ b0 : F, b0 = ∑ i, (ξ' i - ξ i) * (β i + ∑ j, γ i j * η' j) := ⟨_, rfl⟩
  have hb1 : (∑ j, (η' j - η j) * (α j + ∑ i, γ i j * ξ i)) + b0 = 0 := by
    have e1 : ∑ i, ∑ j, γ i j * (ξ' i * η' j) - ∑ i, ∑ j, γ i j * (ξ i * η j) =
        (∑ i, (ξ' i - ξ i) * ∑ j, γ i j * η' j) + ∑ j, (η' j - η j) * ∑ i, γ i j * ξ i := by
      simp only [Finset.mul_sum]
      rw [Finset.sum_comm (f := fun j i => (η' j - η j) * (γ i j * ξ i))]
      simp only [← Finset.sum_add_distrib, ← Finset.sum_sub_distrib]
      refine Finset.sum_congr rfl fun i _ => Finset.sum_congr rfl fun j _ => ?_
      ring
    rw [hb0]
    simp only [mul_add, Finset.sum_add_distrib]
    have e2 : ∑ j, (η' j - η j) * α j = ∑ j, α j * η' j - ∑ j, α j * η j := by
      rw [← Finset.sum_sub_distrib]; exact Finset.sum_congr rfl fun j _ => by ring
    have e3 : ∑ i, (ξ' i - ξ i) * β i = ∑ i, ξ' i * β i - ∑ i, ξ i * β i := by
      rw [← Finset.sum_sub_distrib]; exact Finset.sum_congr rfl fun j _ => by ring
    rw [e2, e3]
    linear_combination -h - e1
  refine ⟨changeRands γ (fun i => ξ' i - ξ i) (fun j => η' j - η j) b0 r s, ?_⟩
  rintro ⟨R, S, T⟩
  have hu : ∀ (t : Fin p → F) (c : F), ∑ k, (t k - r k * c) • u k = ∑ k, t k • u k - c • Z := by
    intro t c
    rw [← hr, Finset.smul_sum, ← Finset.sum_sub_distrib]
    exact Finset.sum_congr rfl fun k _ => by module
  have hv : ∀ (t : Fin q → F) (c : F), ∑ k, (t k - c * s k) • v k = ∑ k, t k • v k - c • W := by
    intro t c
    rw [← hs, Finset.smul_sum, ← Finset.sum_sub_distrib]
    exact Finset.sum_congr rfl fun k _ => by module
  have hd : ∀ j, η j • W + ∑ l, S j l • v l = η' j • W + ∑ l, (S j l - (η' j - η j) * s l) • v l := by
    intro j; rw [hv]; module
  simp only [viewFn, changeRands, Equiv.coe_fn_mk, Prod.mk.injEq]
  refine ⟨?_, funext hd, ?_, ?_⟩
  · funext i
    have : ∑ k, (R i k - (ξ' i - ξ i) * r k) • u k = ∑ k, R i k • u k - (ξ' i - ξ i) • Z := by
      rw [← hu]; exact Finset.sum_congr rfl fun k _ => by rw [mul_comm]
    rw [this]; module
  · funext k
    rw [piVal_eq, piVal_eq]
    have e1 : ∀ i, β i • W + ∑ j, γ i j • (η j • W + ∑ l, S j l • v l) =
        β i • W + ∑ j, γ i j • (η' j • W + ∑ l, (S j l - (η' j - η j) * s l) • v l) := fun i =>
      congrArg _ (Finset.sum_congr rfl fun j _ => by rw [hd j])
    simp only [e1]
    generalize hS' : (fun j l => S j l - (η' j - η j) * s l) = S'
    have hSS : ∀ j l, S j l - (η' j - η j) * s l = S' j l := fun j l => by rw [← hS']
    simp only [hSS]
    have e2 : ∑ l, (T l k - shear γ (fun i => ξ' i - ξ i) b0 r s S' l k) • v l =
        ∑ l, T l k • v l - r k • (b0 • W + ∑ i, (ξ' i - ξ i) • ∑ j, γ i j • ∑ l, S' j l • v l) := by
      have e3 : ∑ i, (ξ' i - ξ i) • ∑ j, γ i j • ∑ l, S' j l • v l =
          ∑ l, (∑ i, ∑ j, (ξ' i - ξ i) * γ i j * S' j l) • v l := by
        simp only [Finset.smul_sum, Finset.sum_smul, smul_smul]
        rw [Finset.sum_comm (f := fun l i => ∑ j, ((ξ' i - ξ i) * γ i j * S' j l) • v l)]
        refine Finset.sum_congr rfl fun i _ => ?_
        rw [Finset.sum_comm]
        exact Finset.sum_congr rfl fun l _ => Finset.sum_congr rfl fun j _ => by rw [mul_assoc]
      rw [e3, ← hs, Finset.smul_sum, ← Finset.sum_add_distrib, Finset.smul_sum, ← Finset.sum_sub_distrib]
      refine Finset.sum_congr rfl fun l _ => ?_
      simp only [shear]
      module
    rw [e2]
    have e4 : ∑ i, (R i k - (ξ' i - ξ i) * r k) • (β i • W + ∑ j, γ i j • (η' j • W + ∑ l, S' j l • v l)) =
        ∑ i, R i k • (β i • W + ∑ j, γ i j • (η' j • W + ∑ l, S' j l • v l)) -
        r k • ∑ i, (ξ' i - ξ i) • (β i • W + ∑ j, γ i j • (η' j • W + ∑ l, S' j l • v l)) := by
      rw [Finset.smul_sum, ← Finset.sum_sub_distrib]
      exact Finset.sum_congr rfl fun i _ => by module
    rw [e4]
    have e5 : ∑ i, (ξ' i - ξ i) • (β i • W + ∑ j, γ i j • (η' j • W + ∑ l, S' j l • v l)) =
        b0 • W + ∑ i, (ξ' i - ξ i) • ∑ j, γ i j • ∑ l, S' j l • v l := by
      rw [hb0, Finset.sum_smul, ← Finset.sum_add_distrib]
      refine Finset.sum_congr rfl fun i _ => ?_
      simp only [smul_add, Finset.sum_add_distrib, smul_smul]
      rw [← Finset.sum_smul]
      module
    rw [e5]
    abel
  · funext l
    rw [thetaVal_eq, thetaVal_eq]
    simp only [shear]
    rw [hu (fun k => T l k)]
    have e1 : ∀ (S : Fin n → Fin q → F) (ξ : Fin m → F), ∑ j, S j l • (α j • Z + ∑ i, γ i j • ξ i • Z) =
        (∑ j, S j l * (α j + ∑ i, γ i j * ξ i)) • Z := by
      intro S ξ
      rw [Finset.sum_smul]
      refine Finset.sum_congr rfl fun j _ => ?_
      simp only [smul_smul, ← Finset.sum_smul]
      module
    have e2 : ∑ j, (S j l - (η' j - η j) * s l) • (α j • Z + ∑ i, γ i j • ξ' i • Z) =
        (∑ j, (S j l - (η' j - η j) * s l) * (α j + ∑ i, γ i j * ξ' i)) • Z :=
      e1 (fun j l => S j l - (η' j - η j) * s l) ξ'
    rw [e1, e2]
    have e3 : ∑ j, S j l * (α j + ∑ i, γ i j * ξ i) =
        ∑ j, (S j l - (η' j - η j) * s l) * (α j + ∑ i, γ i j * ξ' i) -
        (b0 * s l + ∑ i, ∑ j, (ξ' i - ξ i) * γ i j * (S j l - (η' j - η j) * s l)) := by
      have e4 : ∑ i, ∑ j, (ξ' i - ξ i) * γ i j * (S j l - (η' j - η j) * s l) =
          ∑ j, (S j l - (η' j - η j) * s l) * ((∑ i, γ i j * ξ' i) - ∑ i, γ i j * ξ i) := by
        rw [Finset.sum_comm]
        refine Finset.sum_congr rfl fun j _ => ?_
        rw [← Finset.sum_sub_distrib, Finset.mul_sum]
        exact Finset.sum_congr rfl fun i _ => by ring
      have e5 : b0 * s l = -∑ j, s l * ((η' j - η j) * (α j + ∑ i, γ i j * ξ i)) := by
        rw [← Finset.mul_sum]
        linear_combination s l * hb1
      rw [e4, e5, sub_add_eq_sub_sub, sub_neg_eq_add, ← Finset.sum_add_distrib, ← Finset.sum_sub_distrib]
      exact Finset.sum_congr rfl fun j _ => by ring
    rw [e3, sub_smul]
    abel

/-- Witnesses that differ on the left only. -/
theorem viewFn_equiv_left (u : Fin p → A) (v : Fin q → B) (r : Fin p → F) (Z : A) (hr : ∑ k, r k • u k = Z)
    (a : Fin n → A) (x x' : Fin m → A) (b : Fin m → B) (y : Fin n → B) (γ : Fin m → Fin n → F) (κ : Fin m → F)
    (hx : ∀ i, x' i = x i + κ i • Z) (h : ∑ i, κ i • (b i + ∑ j, γ i j • y j) = 0) :
    ∃ φ : Rands F m n p q ≃ Rands F m n p q, ∀ w, viewFn u v a x b y γ w = viewFn u v a x' b y γ (φ w) := by
  refine ⟨changeRands γ κ 0 0 r 0, ?_⟩
  rintro ⟨R, S, T⟩
  have hu : ∀ (t : Fin p → F) (c : F), ∑ k, (t k - r k * c) • u k = ∑ k, t k • u k - c • Z := by
    intro t c
    rw [← hr, Finset.smul_sum, ← Finset.sum_sub_distrib]
    exact Finset.sum_congr rfl fun k _ => by module
  simp only [viewFn, changeRands, Equiv.coe_fn_mk, Prod.mk.injEq, Pi.zero_apply, zero_mul, sub_zero, true_and]
  refine ⟨?_, ?_, ?_⟩
  · funext i
    have : ∑ k, (R i k - κ i * r k) • u k = ∑ k, R i k • u k - κ i • Z := by
      rw [← hu]; exact Finset.sum_congr rfl fun k _ => by rw [mul_comm]
    rw [this, hx]; abel
  · funext k
    rw [piVal_eq, piVal_eq]
    have e2 : ∑ l, (T l k - shear γ κ 0 r 0 S l k) • v l =
        ∑ l, T l k • v l - r k • ∑ i, κ i • ∑ j, γ i j • ∑ l, S j l • v l := by
      have e3 : ∑ i, κ i • ∑ j, γ i j • ∑ l, S j l • v l = ∑ l, (∑ i, ∑ j, κ i * γ i j * S j l) • v l := by
        simp only [Finset.smul_sum, Finset.sum_smul, smul_smul]
        rw [Finset.sum_comm (f := fun l i => ∑ j, (κ i * γ i j * S j l) • v l)]
        refine Finset.sum_congr rfl fun i _ => ?_
        rw [Finset.sum_comm]
        exact Finset.sum_congr rfl fun l _ => Finset.sum_congr rfl fun j _ => by rw [mul_assoc]
      rw [e3, Finset.smul_sum, ← Finset.sum_sub_distrib]
      refine Finset.sum_congr rfl fun l _ => ?_
      simp only [shear, Pi.zero_apply, mul_zero, zero_add]
      module
    rw [e2]
    have e4 : ∑ i, (R i k - κ i * r k) • (b i + ∑ j, γ i j • (y j + ∑ l, S j l • v l)) =
        ∑ i, R i k • (b i + ∑ j, γ i j • (y j + ∑ l, S j l • v l)) -
        r k • ∑ i, κ i • (b i + ∑ j, γ i j • (y j + ∑ l, S j l • v l)) := by
      rw [Finset.smul_sum, ← Finset.sum_sub_distrib]
      exact Finset.sum_congr rfl fun i _ => by module
    have e5 : ∑ i, κ i • (b i + ∑ j, γ i j • (y j + ∑ l, S j l • v l)) =
        ∑ i, κ i • ∑ j, γ i j • ∑ l, S j l • v l := by
      rw [← sub_eq_zero, ← h, ← Finset.sum_sub_distrib]
      refine Finset.sum_congr rfl fun i _ => ?_
      simp only [smul_add, Finset.sum_add_distrib]
      abel
    rw [e4, e5]
    abel
  · funext l
    rw [thetaVal_eq, thetaVal_eq]
    simp only [shear, Pi.zero_apply, mul_zero, zero_add]
    rw [hu (fun k => T l k)]
    have e1 : ∑ j, S j l • (a j + ∑ i, γ i j • x' i) = ∑ j, S j l • (a j + ∑ i, γ i j • x i) +
        (∑ i, ∑ j, κ i * γ i j * S j l) • Z := by
      rw [Finset.sum_comm, Finset.sum_smul, ← Finset.sum_add_distrib]
      refine Finset.sum_congr rfl fun j _ => ?_
      simp only [hx, smul_add, Finset.sum_add_distrib, smul_smul, Finset.sum_smul, Finset.smul_sum, add_assoc]
      congr 2
      exact Finset.sum_congr rfl fun i _ => by congr 1; ring
    rw [e1]
    abel

/-- Witnesses that differ on the right only. -/
theorem viewFn_equiv_right (u : Fin p → A) (v : Fin q → B) (s : Fin q → F) (W : B) (hs : ∑ l, s l • v l = W)
    (a : Fin n → A) (x : Fin m → A) (b : Fin m → B) (y y' : Fin n → B) (γ : Fin m → Fin n → F) (lam : Fin n → F)
    (hy : ∀ j, y' j = y j + lam j • W) (h : ∑ j, lam j • (a j + ∑ i, γ i j • x i) = 0) :
    ∃ φ : Rands F m n p q ≃ Rands F m n p q, ∀ w, viewFn u v a x b y γ w = viewFn u v a x b y' γ (φ w) := by
  refine ⟨changeRands γ 0 lam 0 0 s, ?_⟩
  rintro ⟨R, S, T⟩
  have hd : ∀ j, y j + ∑ l, S j l • v l = y' j + ∑ l, (S j l - lam j * s l) • v l := by
    intro j
    rw [hy, ← hs, Finset.smul_sum, add_assoc, ← Finset.sum_add_distrib]
    exact congrArg _ (Finset.sum_congr rfl fun l _ => by module)
  have hz : ∀ S l k, shear (p := p) γ (0 : Fin m → F) 0 0 s S l k = 0 := by
    intro S l k; simp [shear]
  simp only [viewFn, changeRands, Equiv.coe_fn_mk, Prod.mk.injEq, Pi.zero_apply, zero_mul, mul_zero, sub_zero, true_and,
    hz]
  refine ⟨funext hd, ?_, ?_⟩
  · funext k
    rw [piVal_eq, piVal_eq]
    simp only [hd]
  · funext l
    rw [thetaVal_eq, thetaVal_eq]
    have e4 : ∑ j, (S j l - lam j * s l) • (a j + ∑ i, γ i j • x i) =
        ∑ j, S j l • (a j + ∑ i, γ i j • x i) - s l • ∑ j, lam j • (a j + ∑ i, γ i j • x i) := by
      rw [Finset.smul_sum, ← Finset.sum_sub_distrib]
      exact Finset.sum_congr rfl fun i _ => by module
    rw [e4, h, smul_zero, sub_zero]

/-- What two solutions that differ on the left only say about the equation. -/
theorem diff_left {C : Type} [AddCommGroup C] [Module F C] (f : A →ₗ[F] B →ₗ[F] C) {a : Fin n → A} {x x' : Fin m → A}
    {b : Fin m → B} {y : Fin n → B} {γ : Fin m → Fin n → F} {κ : Fin m → F} {Z : A} (hx : ∀ i, x' i = x i + κ i • Z)
    (h : (∑ j, f (a j) (y j)) + (∑ i, f (x' i) (b i)) + ∑ i, ∑ j, γ i j • f (x' i) (y j) =
      (∑ j, f (a j) (y j)) + (∑ i, f (x i) (b i)) + ∑ i, ∑ j, γ i j • f (x i) (y j)) :
    f Z (∑ i, κ i • (b i + ∑ j, γ i j • y j)) = 0 := by
  have e1 : f Z (∑ i, κ i • (b i + ∑ j, γ i j • y j)) = (∑ i, f (x' i) (b i)) + (∑ i, ∑ j, γ i j • f (x' i) (y j)) -
      ((∑ i, f (x i) (b i)) + ∑ i, ∑ j, γ i j • f (x i) (y j)) := by
    simp only [← Finset.sum_add_distrib, ← Finset.sum_sub_distrib, map_sum]
    refine Finset.sum_congr rfl fun i _ => ?_
    simp only [hx, map_add, map_smul, map_sum, LinearMap.add_apply, LinearMap.smul_apply, smul_add,
      Finset.sum_add_distrib]
    simp only [Finset.smul_sum, smul_smul, mul_comm]
    abel
  rw [e1, sub_eq_zero]
  rw [add_assoc, add_assoc] at h
  exact add_left_cancel h

/-- The same on the right. -/
theorem diff_right {C : Type} [AddCommGroup C] [Module F C] (f : A →ₗ[F] B →ₗ[F] C) {a : Fin n → A} {x : Fin m → A}
    {b : Fin m → B} {y y' : Fin n → B} {γ : Fin m → Fin n → F} {lam : Fin n → F} {W : B} (hy : ∀ j, y' j = y j + lam j • W)
    (h : (∑ j, f (a j) (y' j)) + (∑ i, f (x i) (b i)) + ∑ i, ∑ j, γ i j • f (x i) (y' j) =
      (∑ j, f (a j) (y j)) + (∑ i, f (x i) (b i)) + ∑ i, ∑ j, γ i j • f (x i) (y j)) :
    f (∑ j, lam j • (a j + ∑ i, γ i j • x i)) W = 0 := by
  rw [Finset.sum_comm, Finset.sum_comm (f := fun i j => γ i j • f (x i) (y j))] at h
  have e1 : f (∑ j, lam j • (a j + ∑ i, γ i j • x i)) W = (∑ j, f (a j) (y' j)) + (∑ j, ∑ i, γ i j • f (x i) (y' j)) -
      ((∑ j, f (a j) (y j)) + ∑ j, ∑ i, γ i j • f (x i) (y j)) := by
    simp only [← Finset.sum_add_distrib, ← Finset.sum_sub_distrib, map_sum, LinearMap.sum_apply]
    refine Finset.sum_congr rfl fun i _ => ?_
    simp only [hy, map_add, map_smul, map_sum, LinearMap.add_apply, LinearMap.smul_apply, LinearMap.sum_apply, smul_add,
      Finset.sum_add_distrib]
    simp only [Finset.smul_sum, smul_smul, mul_comm]
    abel
  rw [e1, sub_eq_zero]
  rw [add_right_comm, add_right_comm (∑ j, f (a j) (y j))] at h
  exact add_right_cancel h

theorem map_left {D : Type} [AddCommGroup D] [Module F D] (L : B →ₗ[F] D) {b : Fin m → B} {y : Fin n → B}
    {γ : Fin m → Fin n → F} {κ : Fin m → F} (h : ∑ i, κ i • (b i + ∑ j, γ i j • y j) = 0) :
    ∑ i, κ i • (L (b i) + ∑ j, γ i j • L (y j)) = 0 := by
  rw [← map_zero L, ← h]
  simp only [map_sum, map_smul, map_add]

theorem map_right {D : Type} [AddCommGroup D] [Module F D] (L : A →ₗ[F] D) {a : Fin n → A} {x : Fin m → A}
    {γ : Fin m → Fin n → F} {κ : Fin n → F} (h : ∑ j, κ j • (a j + ∑ i, γ i j • x i) = 0) :
    ∑ j, κ j • (L (a j) + ∑ i, γ i j • L (x i)) = 0 := by
  rw [← map_zero L, ← h]
  simp only [map_sum, map_smul, map_add]

end core
end GS
