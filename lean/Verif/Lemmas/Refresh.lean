import Verif.Spec.Refresh
import Verif.Lemmas.RandLeak
import Verif.Lemmas.Accept

/-! Refreshing and combining published proofs. -/

set_option linter.unusedSectionVars false
set_option linter.unusedVariables false

namespace GS

section core
variable {F A B C : Type} [Field F] [AddCommGroup A] [Module F A] [AddCommGroup B] [Module F B]
  [AddCommGroup C] [Module F C] (f : A →ₗ[F] B →ₗ[F] C) {m n p q : Nat}

/-- The effect of refreshing on commitments and proof. -/
def refreshFn (u : Fin p → A) (v : Fin q → B) (a : Fin n → A) (b : Fin m → B) (γ : Fin m → Fin n → F)
    (w : (Fin m → A) × (Fin n → B) × (Fin p → B) × (Fin q → A)) (r : Rands F m n p q) :
    (Fin m → A) × (Fin n → B) × (Fin p → B) × (Fin q → A) :=
  (fun i => w.1 i + ∑ k, r.1 i k • u k, fun j => w.2.1 j + ∑ l, r.2.1 j l • v l,
    fun k => w.2.2.1 k + piVal b w.2.1 γ r.1 r.2.1 r.2.2 v k, fun l => w.2.2.2 l + thetaVal a w.1 γ r.2.1 r.2.2 u l)

/-- Refreshing the output of a prover gives the output of the prover with other randomness. -/
def shiftRands (γ : Fin m → Fin n → F) (r0 : Rands F m n p q) : Rands F m n p q ≃ Rands F m n p q where
  toFun r := (r0.1 + r.1, r0.2.1 + r.2.1, r0.2.2 + r.2.2 + fun l k => ∑ i, r0.1 i k * ∑ j, γ i j * r.2.1 j l)
  invFun r := (r.1 - r0.1, r.2.1 - r0.2.1,
    r.2.2 - r0.2.2 - fun l k => ∑ i, r0.1 i k * ∑ j, γ i j * (r.2.1 - r0.2.1) j l)
  left_inv r := by
    obtain ⟨R, S, T⟩ := r
    simp only [Prod.mk.injEq, add_sub_cancel_left, true_and]
    abel
  right_inv r := by
    obtain ⟨R, S, T⟩ := r
    simp only [Prod.mk.injEq, add_sub_cancel, true_and]
    abel

theorem refreshFn_viewFn (u : Fin p → A) (v : Fin q → B) (a x : _) (b y : _) (γ : Fin m → Fin n → F)
    (r0 r : Rands F m n p q) :
    refreshFn u v a b γ (viewFn u v a x b y γ r0) r = viewFn u v a x b y γ (shiftRands γ r0 r) := by
  obtain ⟨R0, S0, T0⟩ := r0
  obtain ⟨R, S, T⟩ := r
  simp only [refreshFn, viewFn, shiftRands, Equiv.coe_fn_mk, Prod.mk.injEq]
  refine ⟨?_, ?_, ?_, ?_⟩
  · funext i
    simp only [Pi.add_apply, add_smul, Finset.sum_add_distrib]
    abel
  · funext i
    simp only [Pi.add_apply, add_smul, Finset.sum_add_distrib]
    abel
  · funext k
    rw [piVal_eq, piVal_eq, piVal_eq]
    simp only [Pi.add_apply, add_smul, Finset.sum_add_distrib, smul_add]
    have : ∑ l, (∑ i, R0 i k * ∑ j, γ i j * S j l) • v l = ∑ i, R0 i k • ∑ j, γ i j • ∑ l, S j l • v l := by
      simp only [Finset.sum_smul, Finset.smul_sum, Finset.mul_sum, smul_smul]
      rw [Finset.sum_comm]
      refine Finset.sum_congr rfl fun i _ => ?_
      rw [Finset.sum_comm]
    rw [this]
    abel
  · funext l
    rw [thetaVal_eq, thetaVal_eq, thetaVal_eq]
    simp only [Pi.add_apply, add_smul, Finset.sum_add_distrib, smul_add]
    have : ∑ k, (∑ i, R0 i k * ∑ j, γ i j * S j l) • u k = ∑ j, S j l • ∑ i, γ i j • ∑ k, R0 i k • u k := by
      simp only [Finset.sum_smul, Finset.smul_sum, Finset.mul_sum, smul_smul]
      rw [Finset.sum_comm, Finset.sum_comm (s := Finset.univ (α := Fin n))]
      refine Finset.sum_congr rfl fun i _ => ?_
      rw [Finset.sum_comm]
      refine Finset.sum_congr rfl fun j _ => Finset.sum_congr rfl fun k _ => ?_
      congr 1
      ring
    rw [this]
    abel

end core

variable {F G1 G2 GT : Type} [Field F] [AddCommGroup G1] [Module F G1] [AddCommGroup G2] [Module F G2]
  [AddCommGroup GT] [Module F GT] {e : G1 →ₗ[F] G2 →ₗ[F] GT} {m n p q : Nat}

theorem addL_ofFn {A : Type} [Add A] (x y : Fin n → A) (l : List A) :
    addL (List.ofFn x ++ l) (List.ofFn y) = List.ofFn fun i => x i + y i := zipWith_ofFn_append _ _ _ _

theorem addL_ofFn' {A : Type} [Add A] (x y : Fin n → A) :
    addL (List.ofFn x) (List.ofFn y) = List.ofFn fun i => x i + y i := zipWith_ofFn _ _ _

theorem mulKey_ofFn {G : Type} [AddCommGroup G] [Module F G] (R : Fin m → Fin p → F) (u : Fin p → Com G) :
    mulKey (matOf R) (List.ofFn u) = List.ofFn fun i => ∑ k, R i k • u k := by
  simp only [mulKey, matOf, List.map_ofFn, Function.comp_def, zipWith_ofFn, List.sum_ofFn]

theorem colSums_matOf {G : Type} [AddCommGroup G] [Module F G] (R : Fin m → Fin p → F) (w : Fin m → G) :
    colSums p (matOf R) (List.ofFn w) = List.ofFn fun k => ∑ i, R i k • w i := by
  rw [colSums_ofFn]

theorem refresh_ofFn (u : Fin p → Com G1) (v : Fin q → Com G2) (a : Fin n → Com G1) (b : Fin m → Com G2)
    (γ : Fin m → Fin n → F) (R : Fin m → Fin p → F) (S : Fin n → Fin q → F) (T : Fin q → Fin p → F)
    (c : Fin m → Com G1) (d : Fin n → Com G2) (π : Fin p → Com G2) (π' : List (Com G2)) (θ : Fin q → Com G1)
    (θ' : List (Com G1)) (ty : EquType) (r : Matrix F) :
    refresh (List.ofFn u) (List.ofFn v) (List.ofFn a) (List.ofFn b) (matOf γ) (matOf R) (matOf S) (matOf T) (List.ofFn c)
      (List.ofFn d) ⟨List.ofFn π ++ π', List.ofFn θ ++ θ', ty, r⟩ =
    let w := refreshFn u v a b γ (c, d, π, θ) (R, S, T)
    ⟨⟨List.ofFn w.1, []⟩, ⟨List.ofFn w.2.1, []⟩, [⟨List.ofFn w.2.2.1, List.ofFn w.2.2.2, ty, []⟩]⟩ := by
  simp only [refresh, mulKey_ofFn, addL_ofFn', weights_ofFn, List.length_ofFn, colSums_matOf, List.map_ofFn,
    Function.comp_def, addL_ofFn, refreshFn, piVal_eq, thetaVal_eq, sub_eq_add_neg]

theorem gsEquation_ofFn (a : Fin n → Com G1) (c : Fin m → Com G1) (b : Fin m → Com G2) (d : Fin n → Com G2) (γ : Fin m → Fin n → F) (t : ComT GT) (u : Fin p → Com G1) (v : Fin q → Com G2)
    (π : Fin p → Com G2) (θ : Fin q → Com G1) :
    gsEquation e (List.ofFn a) (List.ofFn c) (List.ofFn b) (List.ofFn d) (matOf γ) t (List.ofFn u) (List.ofFn π)
        (List.ofFn θ) (List.ofFn v) ↔
      (∑ j, ComT.pairL e (a j) (d j)) + (∑ i, ComT.pairL e (c i) (b i)) + (∑ i, ComT.pairL e (c i) (∑ j, γ i j • d j)) =
        t + (∑ k, ComT.pairL e (u k) (π k)) + ∑ l, ComT.pairL e (θ l) (v l) := by
  rw [gsEquation, equLhs_ofFn, zipWith_ofFn, zipWith_ofFn, List.sum_ofFn, List.sum_ofFn]
  simp only [map_sum, map_smul]
  rfl

theorem gsEquation_refresh {a : Fin n → Com G1} {c : Fin m → Com G1} {b : Fin m → Com G2} {d : Fin n → Com G2} {γ : Fin m → Fin n → F} {t : ComT GT} {u : Fin p → Com G1}
    {v : Fin q → Com G2} {π : Fin p → Com G2} {θ : Fin q → Com G1}
    (h : gsEquation e (List.ofFn a) (List.ofFn c) (List.ofFn b) (List.ofFn d) (matOf γ) t (List.ofFn u) (List.ofFn π)
        (List.ofFn θ) (List.ofFn v)) (r : Rands F m n p q) :
    let w := refreshFn u v a b γ (c, d, π, θ) r
    gsEquation e (List.ofFn a) (List.ofFn w.1) (List.ofFn b) (List.ofFn w.2.1) (matOf γ) t (List.ofFn u)
      (List.ofFn w.2.2.1) (List.ofFn w.2.2.2) (List.ofFn v) := by
  intro w
  rw [gsEquation_ofFn] at h ⊢
  rw [gs_identity (ComT.pairL e) a c b d γ r.1 r.2.1 r.2.2 u v w.1 w.2.1 (fun _ => rfl) (fun _ => rfl)]
  have h' : (∑ j, ComT.pairL e (a j) (d j)) + (∑ i, ComT.pairL e (c i) (b i)) +
      (∑ i, ∑ j, γ i j • ComT.pairL e (c i) (d j)) =
        t + (∑ k, ComT.pairL e (u k) (π k)) + ∑ l, ComT.pairL e (θ l) (v l) := by
    simpa only [map_sum, map_smul] using h
  rw [h']
  simp only [w, refreshFn, map_add, LinearMap.add_apply, Finset.sum_add_distrib]
  abel

theorem gsEquation_combine {a a' : Fin n → Com G1} {c : Fin m → Com G1} {b b' : Fin m → Com G2} {d : Fin n → Com G2} {γ γ' : Fin m → Fin n → F} {t t' : ComT GT} {u : Fin p → Com G1}
    {v : Fin q → Com G2} {π π' : Fin p → Com G2} {θ θ' : Fin q → Com G1} (s s' : F)
    (h : gsEquation e (List.ofFn a) (List.ofFn c) (List.ofFn b) (List.ofFn d) (matOf γ) t (List.ofFn u) (List.ofFn π)
        (List.ofFn θ) (List.ofFn v))
    (h' : gsEquation e (List.ofFn a') (List.ofFn c) (List.ofFn b') (List.ofFn d) (matOf γ') t' (List.ofFn u) (List.ofFn π')
        (List.ofFn θ') (List.ofFn v)) :
    gsEquation e (List.ofFn fun j => s • a j + s' • a' j) (List.ofFn c) (List.ofFn fun i => s • b i + s' • b' i)
      (List.ofFn d) (matOf fun i j => s * γ i j + s' * γ' i j) (s • t + s' • t') (List.ofFn u)
      (List.ofFn fun k => s • π k + s' • π' k) (List.ofFn fun l => s • θ l + s' • θ' l) (List.ofFn v) := by
  rw [gsEquation_ofFn] at h h' ⊢
  have h := congrArg (s • ·) h
  have h' := congrArg (s' • ·) h'
  simp only [map_sum, map_smul, map_add, LinearMap.add_apply, LinearMap.smul_apply, add_smul, mul_smul, smul_add,
    Finset.sum_add_distrib, Finset.smul_sum] at h h' ⊢
  have := congrArg₂ (· + ·) h h'
  calc _ = _ := by abel
    _ = _ := this
    _ = _ := by abel

theorem linL_ofFn {A : Type} [Add A] [SMul F A] (s s' : F) (x y : Fin n → A) :
    linL s s' (List.ofFn x) (List.ofFn y) = List.ofFn fun i => s • x i + s' • y i := zipWith_ofFn _ _ _

theorem linL_matOf (s s' : F) (x y : Fin m → Fin n → F) :
    List.zipWith (linL s s') (matOf x) (matOf y) = matOf fun i j => s * x i j + s' * y i j := by
  simp only [matOf, zipWith_ofFn, linL_ofFn, smul_eq_mul]

/-! ### Reading tapes -/

theorem cut_flatten (R : Fin m → Fin p → F) (l : List F) : cut p m ((matOf R).flatten ++ l) = (matOf R, l) := by
  induction m with
  | zero => rfl
  | succ m ih =>
    have : matOf R = List.ofFn (R 0) :: matOf (fun i => R i.succ) := by simp [matOf, List.ofFn_succ]
    rw [this, List.flatten_cons, List.append_assoc, cut]
    have ht : (List.ofFn (R 0) ++ ((matOf fun i => R i.succ).flatten ++ l)).take p = List.ofFn (R 0) := by
      rw [List.take_append_of_le_length (by simp), List.take_of_length_le (by simp)]
    have hd : (List.ofFn (R 0) ++ ((matOf fun i => R i.succ).flatten ++ l)).drop p = (matOf fun i => R i.succ).flatten ++ l := by
      rw [List.drop_append_of_le_length (by simp), List.drop_of_length_le (by simp), List.nil_append]
    rw [ht, hd, ih]

theorem onTape_eq {α : Type} {N : Nat} (f : Matrix F → Matrix F → Matrix F → α) (t : Fin N → F) (r : Rands F m n p q)
    (ht : List.ofFn t = flat r) : onTape m n p q f t = .ok (f (matOf r.1) (matOf r.2.1) (matOf r.2.2)) := by
  have h : flat r = (matOf r.1).flatten ++ ((matOf r.2.1).flatten ++ ((matOf r.2.2).flatten ++ [])) := by
    simp [flat]
  simp only [onTape, ht, h, cut_flatten]

end GS
