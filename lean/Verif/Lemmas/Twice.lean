import Verif.Spec.Twice
import Verif.Lemmas.RandLeak

/-! Two proofs made with the same randomness. -/

set_option linter.unusedSectionVars false

namespace GS

section abstract
variable {F A B C : Type} [Field F] [AddCommGroup A] [Module F A] [AddCommGroup B] [Module F B]
  [AddCommGroup C] [Module F C] (f : A →ₗ[F] B →ₗ[F] C) {m n p q : Nat}

/-- What two proofs with the same randomness reveal. -/
theorem twice_identity (x : Fin m → A) (b b' : Fin m → B) (y y' : Fin n → B) (γ γ' : Fin m → Fin n → F)
    (R : Fin m → Fin p → F) (S : Fin n → Fin q → F) (T : Fin q → Fin p → F) (u : Fin p → A) (v : Fin q → B) :
    (∑ i, f (x i + ∑ k, R i k • u k) ((b' i + ∑ j, γ' i j • (y' j + ∑ l, S j l • v l)) - (b i + ∑ j, γ i j • (y j + ∑ l, S j l • v l)))) -
      ∑ k, f (u k) (piVal b' y' γ' R S T v k - piVal b y γ R S T v k) =
    ∑ i, f (x i) ((b' i + ∑ j, γ' i j • (y' j + ∑ l, S j l • v l)) - (b i + ∑ j, γ i j • (y j + ∑ l, S j l • v l))) := by
  rw [← unmask_identity f x (fun i => (b' i + ∑ j, γ' i j • (y' j + ∑ l, S j l • v l)) - (b i + ∑ j, γ i j • (y j + ∑ l, S j l • v l))) R u]
  congr 1
  refine Finset.sum_congr rfl fun k _ => ?_
  rw [piVal_eq, piVal_eq, sub_sub_sub_cancel_right, ← Finset.sum_sub_distrib]
  simp only [smul_sub]

variable {u : Fin p → A} {v : Fin q → B} {ξ : A} {η : B} {s : Fin p → F} {s' : Fin q → F}

/-- Change of the proof's own randomness between two witnesses. -/
def shiftT (s' : Fin q → F) (α : Fin n → F) (γ : Fin m → Fin n → F) (x z : Fin m → F) (y w : Fin n → F) (S : Fin n → Fin q → F) (l : Fin q) : F :=
  ∑ j, (S j l * (α j + ∑ i, γ i j * x i) - (S j l + (y j - w j) * s' l) * (α j + ∑ i, γ i j * z i))

/-- Randomness for another witness giving the same view. -/
theorem viewFn_shift (hξ : ξ = ∑ k, s k • u k) (hη : η = ∑ l, s' l • v l) (α : Fin n → F) (β : Fin m → F)
    (γ : Fin m → Fin n → F) (x z : Fin m → F) (y w : Fin n → F)
    (heq : (∑ j, α j * y j) + (∑ i, x i * β i) + (∑ i, ∑ j, γ i j * (x i * y j)) =
      (∑ j, α j * w j) + (∑ i, z i * β i) + ∑ i, ∑ j, γ i j * (z i * w j))
    (R : Fin m → Fin p → F) (S : Fin n → Fin q → F) (T : Fin q → Fin p → F) :
    viewFn u v (fun j => α j • ξ) (fun i => x i • ξ) (fun i => β i • η) (fun j => y j • η) γ (R, S, T) =
      viewFn u v (fun j => α j • ξ) (fun i => z i • ξ) (fun i => β i • η) (fun j => w j • η) γ
        (fun i k => R i k + (x i - z i) * s k, fun j l => S j l + (y j - w j) * s' l,
          fun l k => T l k + shiftT s' α γ x z y w S l * s k) := by
  have hsum : ∀ {G : Type} [AddCommGroup G] [Module F G] {p : Nat} (u : Fin p → G) (r s : Fin p → F) (d : F),
      ∑ k, (r k + d * s k) • u k = ∑ k, r k • u k + d • ∑ k, s k • u k := by
    intro G _ _ p u r s d
    rw [Finset.smul_sum, ← Finset.sum_add_distrib]
    exact Finset.sum_congr rfl fun l _ => by rw [add_smul, mul_smul]
  have hd : ∀ j, y j • η + ∑ l, S j l • v l = w j • η + ∑ l, (S j l + (y j - w j) * s' l) • v l := by
    intro j
    rw [hsum, ← hη, sub_smul]; abel
  simp only [viewFn, Prod.mk.injEq]
  refine ⟨?_, funext hd, ?_, ?_⟩
  · funext i
    rw [hsum, ← hξ, sub_smul]; abel
  · funext k
    rw [piVal_eq, piVal_eq]
    simp only [← hd]
    have key : ∑ i, (x i - z i) • (β i • η + ∑ j, γ i j • (y j • η + ∑ l, S j l • v l)) =
        ∑ l, shiftT s' α γ x z y w S l • v l := by
      have h1 : ∀ i, (x i - z i) • (β i • η + ∑ j, γ i j • (y j • η + ∑ l, S j l • v l)) =
          ((x i - z i) * β i + ∑ j, γ i j * ((x i - z i) * y j)) • η +
            ∑ j, (γ i j * (x i - z i)) • ∑ l, S j l • v l := by
        intro i
        rw [smul_add, smul_smul, add_smul, add_assoc]
        congr 1
        rw [Finset.smul_sum, Finset.sum_smul, ← Finset.sum_add_distrib]
        refine Finset.sum_congr rfl fun j _ => ?_
        module
      have h2 : ∑ l, shiftT s' α γ x z y w S l • v l =
          (∑ j, (∑ i, γ i j * (x i - z i)) • ∑ l, S j l • v l) - (∑ j, (y j - w j) * (α j + ∑ i, γ i j * z i)) • η := by
        have hP : ∀ j, ∑ i, γ i j * (x i - z i) = (α j + ∑ i, γ i j * x i) - (α j + ∑ i, γ i j * z i) := by
          intro j
          rw [add_sub_add_left_eq_sub, ← Finset.sum_sub_distrib]
          exact Finset.sum_congr rfl fun i _ => by ring
        simp only [hP, shiftT]
        rw [Finset.sum_smul, ← Finset.sum_sub_distrib]
        simp only [Finset.sum_smul (s := (Finset.univ : Finset (Fin n)))]
        rw [Finset.sum_comm]
        refine Finset.sum_congr rfl fun j _ => ?_
        rw [hη, Finset.smul_sum, Finset.smul_sum, ← Finset.sum_sub_distrib]
        refine Finset.sum_congr rfl fun l _ => ?_
        module
      have h3 : ∑ i, ((x i - z i) * β i + ∑ j, γ i j * ((x i - z i) * y j)) = - ∑ j, (y j - w j) * (α j + ∑ i, γ i j * z i) := by
        have e1 : ∑ i, ((x i - z i) * β i + ∑ j, γ i j * ((x i - z i) * y j)) =
            (∑ i, x i * β i) + (∑ i, ∑ j, γ i j * (x i * y j)) - ((∑ i, z i * β i) + ∑ i, ∑ j, γ i j * (z i * y j)) := by
          simp only [← Finset.sum_add_distrib, ← Finset.sum_sub_distrib]
          refine Finset.sum_congr rfl fun i _ => ?_
          rw [show ∑ j, γ i j * ((x i - z i) * y j) = (∑ j, γ i j * (x i * y j)) - ∑ j, γ i j * (z i * y j) by
            rw [← Finset.sum_sub_distrib]; exact Finset.sum_congr rfl fun j _ => by ring]
          ring
        have e2 : ∑ j, (y j - w j) * (α j + ∑ i, γ i j * z i) =
            (∑ j, α j * y j) + (∑ i, ∑ j, γ i j * (z i * y j)) - ((∑ j, α j * w j) + ∑ i, ∑ j, γ i j * (z i * w j)) := by
          rw [Finset.sum_comm (f := fun i j => γ i j * (z i * y j)), Finset.sum_comm (f := fun i j => γ i j * (z i * w j))]
          simp only [← Finset.sum_add_distrib, ← Finset.sum_sub_distrib]
          refine Finset.sum_congr rfl fun j _ => ?_
          have : ∀ c : F, ∑ i, γ i j * (z i * c) = c * ∑ i, γ i j * z i := by
            intro c
            rw [Finset.mul_sum]
            exact Finset.sum_congr rfl fun i _ => by ring
          rw [this, this]; ring
        rw [e1, e2]
        linear_combination heq
      rw [h2]
      simp only [h1, Finset.sum_add_distrib (s := (Finset.univ : Finset (Fin m))), ← Finset.sum_smul]
      rw [← Finset.sum_add_distrib, h3, neg_smul, Finset.sum_comm]
      simp only [← Finset.sum_smul]
      abel
    have : ∑ i, (R i k + (x i - z i) * s k) • (β i • η + ∑ j, γ i j • (y j • η + ∑ l, S j l • v l)) =
        ∑ i, R i k • (β i • η + ∑ j, γ i j • (y j • η + ∑ l, S j l • v l)) + s k • ∑ i, (x i - z i) • (β i • η + ∑ j, γ i j • (y j • η + ∑ l, S j l • v l)) := by
      rw [Finset.smul_sum, ← Finset.sum_add_distrib]
      refine Finset.sum_congr rfl fun i _ => ?_
      rw [add_smul, smul_smul, mul_comm]
    rw [this, key]
    have h4 : ∑ l, (T l k + shiftT s' α γ x z y w S l * s k) • v l = ∑ l, T l k • v l + s k • ∑ l, shiftT s' α γ x z y w S l • v l := by
      rw [Finset.smul_sum, ← Finset.sum_add_distrib]
      refine Finset.sum_congr rfl fun i _ => ?_
      rw [add_smul, smul_smul, mul_comm]
    rw [h4]
    abel
  · funext l
    rw [thetaVal_eq, thetaVal_eq, hsum, ← hξ]
    have h1 : ∀ (r : Fin n → F) (x : Fin m → F), ∑ j, r j • (α j • ξ + ∑ i, γ i j • x i • ξ) = (∑ j, r j * (α j + ∑ i, γ i j * x i)) • ξ := by
      intro r x
      rw [Finset.sum_smul]
      refine Finset.sum_congr rfl fun j _ => ?_
      simp only [smul_smul, ← Finset.sum_smul, ← add_smul]
    rw [h1, h1, shiftT, Finset.sum_sub_distrib, sub_smul]
    abel

/-- For which solutions two proofs with the same randomness reveal the same. -/
theorem twiceFn_iff (hξ : ξ = ∑ k, s k • u k) (hη : η = ∑ l, s' l • v l) (hτ : f ξ η ≠ 0) (α : Fin n → F) (β : Fin m → F)
    (γ : Fin m → Fin n → F) (x x' z z' : Fin m → F) (y y' w w' : Fin n → F)
    (heq : (∑ j, α j * y j) + (∑ i, x i * β i) + (∑ i, ∑ j, γ i j * (x i * y j)) =
      (∑ j, α j * w j) + (∑ i, z i * β i) + ∑ i, ∑ j, γ i j * (z i * w j))
    (heq' : (∑ j, α j * y' j) + (∑ i, x' i * β i) + (∑ i, ∑ j, γ i j * (x' i * y' j)) =
      (∑ j, α j * w' j) + (∑ i, z' i * β i) + ∑ i, ∑ j, γ i j * (z' i * w' j)) :
    (∃ φ : Rands F m n p q ≃ Rands F m n p q, ∀ r,
      (viewFn u v (fun j => α j • ξ) (fun i => x i • ξ) (fun i => β i • η) (fun j => y j • η) γ r,
        viewFn u v (fun j => α j • ξ) (fun i => x' i • ξ) (fun i => β i • η) (fun j => y' j • η) γ r) =
      (viewFn u v (fun j => α j • ξ) (fun i => z i • ξ) (fun i => β i • η) (fun j => w j • η) γ (φ r),
        viewFn u v (fun j => α j • ξ) (fun i => z' i • ξ) (fun i => β i • η) (fun j => w' j • η) γ (φ r))) ↔
    (∀ i, x' i - x i = z' i - z i) ∧ (∀ j, y' j - y j = w' j - w j) ∧
      ∑ i, ∑ j, γ i j * (x i * (y' j - y j)) = ∑ i, ∑ j, γ i j * (z i * (w' j - w j)) := by
  constructor
  · rintro ⟨φ, h⟩
    have h0 := h 0
    generalize φ 0 = r' at h0
    obtain ⟨R, S, T⟩ := r'
    obtain ⟨h1, h2⟩ := Prod.mk.inj h0
    simp only [viewFn, Prod.mk.injEq, Prod.fst_zero, Prod.snd_zero] at h1 h2
    obtain ⟨hc, hd, hp, -⟩ := h1
    obtain ⟨hc', hd', hp', -⟩ := h2
    have hξ0 : ξ ≠ 0 := fun h => hτ (by rw [h, map_zero, LinearMap.zero_apply])
    have hη0 : η ≠ 0 := fun h => hτ (by rw [h, map_zero])
    have hx : ∀ i, x' i - x i = z' i - z i := by
      intro i
      apply smul_cancel hξ0
      have := congrArg₂ (· - ·) (congrFun hc' i) (congrFun hc i)
      simp only [add_sub_add_right_eq_sub] at this
      rw [sub_smul, sub_smul, this]
    have hy : ∀ j, y' j - y j = w' j - w j := by
      intro j
      apply smul_cancel hη0
      have := congrArg₂ (· - ·) (congrFun hd' j) (congrFun hd j)
      simp only [add_sub_add_right_eq_sub] at this
      rw [sub_smul, sub_smul, this]
    refine ⟨hx, hy, ?_⟩
    have e1 := twice_identity f (fun i => x i • ξ) (fun i => β i • η) (fun i => β i • η) (fun j => y j • η) (fun j => y' j • η) γ γ
      (0 : Fin m → Fin p → F) (0 : Fin n → Fin q → F) 0 u v
    have e2 := twice_identity f (fun i => z i • ξ) (fun i => β i • η) (fun i => β i • η) (fun j => w j • η) (fun j => w' j • η) γ γ R S T u v
    have h3 := fun i => congrFun hc i
    have h4 := fun j => congrFun hd j
    have h5 := fun k => congrFun hp k
    have h6 := fun j => congrFun hd' j
    have h7 := fun k => congrFun hp' k
    have hw : ∀ (x : Fin m → F) (y y' : Fin n → F) (S : Fin n → Fin q → F),
        ∑ i, f (x i • ξ) ((β i • η + ∑ j, γ i j • (y' j • η + ∑ l, S j l • v l)) - (β i • η + ∑ j, γ i j • (y j • η + ∑ l, S j l • v l))) =
          (∑ i, ∑ j, γ i j * (x i * (y' j - y j))) • f ξ η := by
      intro x y y' S
      rw [Finset.sum_smul]
      refine Finset.sum_congr rfl fun i _ => ?_
      rw [add_sub_add_left_eq_sub, ← Finset.sum_sub_distrib, map_sum, Finset.sum_smul]
      refine Finset.sum_congr rfl fun j _ => ?_
      rw [← smul_sub, add_sub_add_right_eq_sub, ← sub_smul]
      simp only [map_smul, LinearMap.smul_apply, smul_smul]
      congr 1; ring
    rw [hw] at e1 e2
    simp only [← h3, ← h4, ← h5, ← h6, ← h7] at e2
    exact smul_cancel hτ (e1.symm.trans e2)
  · rintro ⟨hx, hy, hc⟩
    have hx' : ∀ i, x' i - z' i = x i - z i := fun i => by linear_combination hx i
    have hy' : ∀ j, y' j - w' j = y j - w j := fun j => by linear_combination hy j
    have hD : ∀ S l, shiftT s' α γ x' z' y' w' S l = shiftT s' α γ x z y w S l := by
      intro S l
      have hz : ∑ j, (y j - w j) * ∑ i, γ i j * (x' i - x i) = 0 := by
        have hs : ∀ (x : Fin m → F) (y : Fin n → F), ∑ i, ∑ j, γ i j * (x i * y j) = ∑ j, y j * ∑ i, γ i j * x i := by
          intro x y
          rw [Finset.sum_comm]
          refine Finset.sum_congr rfl fun j _ => ?_
          rw [Finset.mul_sum]
          exact Finset.sum_congr rfl fun i _ => by ring
        rw [hs, hs] at hc heq heq'
        have hA : ∑ j, α j * (y' j - y j) = ∑ j, α j * (w' j - w j) := Finset.sum_congr rfl fun j _ => by rw [hy]
        have hB : ∑ i, (x' i - x i) * β i = ∑ i, (z' i - z i) * β i := Finset.sum_congr rfl fun i _ => by rw [hx]
        have hC : ∑ j, (y' j - y j) * ∑ i, γ i j * (x' i - x i) = ∑ j, (w' j - w j) * ∑ i, γ i j * (z' i - z i) := by simp only [hx, hy]
        have hE : ∑ j, w j * ∑ i, γ i j * (x' i - x i) = ∑ j, w j * ∑ i, γ i j * (z' i - z i) := by simp only [hx]
        simp only [mul_sub, sub_mul, Finset.sum_sub_distrib] at *
        linear_combination heq' - heq - hA - hB - hC - hc - hE
      have hP : ∀ j, ∑ i, γ i j * (x' i - x i) = (∑ i, γ i j * x' i) - ∑ i, γ i j * x i := by
        intro j
        rw [← Finset.sum_sub_distrib]
        exact Finset.sum_congr rfl fun i _ => by ring
      have hP' : ∀ j, ∑ i, γ i j * (x' i - x i) = (∑ i, γ i j * z' i) - ∑ i, γ i j * z i := by
        intro j
        rw [← Finset.sum_sub_distrib]
        exact Finset.sum_congr rfl fun i _ => by rw [hx]; ring
      rw [← sub_eq_zero, shiftT, shiftT, ← Finset.sum_sub_distrib]
      have := congrArg (fun r => -(s' l * r)) hz
      simp only [mul_zero, neg_zero] at this
      rw [← this, Finset.mul_sum, ← Finset.sum_neg_distrib]
      refine Finset.sum_congr rfl fun j _ => ?_
      rw [hy']
      linear_combination (- S j l) * hP j + (S j l + (y j - w j) * s' l) * hP' j
    refine ⟨⟨fun r => (fun i k => r.1 i k + (x i - z i) * s k, fun j l => r.2.1 j l + (y j - w j) * s' l,
        fun l k => r.2.2 l k + shiftT s' α γ x z y w r.2.1 l * s k),
      fun r => (fun i k => r.1 i k - (x i - z i) * s k, fun j l => r.2.1 j l - (y j - w j) * s' l,
        fun l k => r.2.2 l k - shiftT s' α γ x z y w (fun j l => r.2.1 j l - (y j - w j) * s' l) l * s k),
      fun r => by simp, fun r => by simp⟩, ?_⟩
    rintro ⟨R, S, T⟩
    refine Prod.ext (viewFn_shift hξ hη α β γ x z y w heq R S T) ?_
    have := viewFn_shift hξ hη α β γ x' z' y' w' heq' R S T
    simp only [hx', hy', hD] at this
    exact this

end abstract
end GS

namespace GS

variable {F G1 G2 GT : Type} [Field F] [AddCommGroup G1] [Module F G1] [AddCommGroup G2] [Module F G2]
  [AddCommGroup GT] [Module F GT] {m n p q N : Nat} {crs : CRS G1 G2 GT}

theorem minus_ofFn {G : Type} [Sub G] (x' x : Fin n → G) : minus (List.ofFn x') (List.ofFn x) = List.ofFn fun i => x' i - x i := by
  rw [minus, zipWith_ofFn]

theorem cross_ofFn {A B C : Type} [AddCommGroup C] [Module F C] (f : A → B → C) (γ : Fin m → Fin n → F) (x : Fin m → A) (y : Fin n → B) :
    cross f (matOf γ) (List.ofFn x) (List.ofFn y) = ∑ i, ∑ j, γ i j • f (x i) (y j) := by
  simp only [cross, matOf, zipWith_ofFn, List.sum_ofFn]

theorem twice_ofFn (e : G1 →ₗ[F] G2 →ₗ[F] GT) {u : Fin p → Com G1} {u' : List (Com G1)} {v : Fin q → Com G2}
    (hu : crs.u = List.ofFn u ++ u') (x : Fin m → Com G1) (b b' : Fin m → Com G2)
    (y y' : Fin n → Com G2) (γ γ' : Fin m → Fin n → F) (R : Fin m → Fin p → F) (S : Fin n → Fin q → F) (T : Fin q → Fin p → F) :
    twice e crs (List.ofFn b) (List.ofFn b') (matOf γ) (matOf γ') (List.ofFn fun i => x i + ∑ k, R i k • u k)
      (List.ofFn fun j => y j + ∑ l, S j l • v l) (List.ofFn fun j => y' j + ∑ l, S j l • v l)
      (List.ofFn (piVal b y γ R S T v)) (List.ofFn (piVal b' y' γ' R S T v)) =
    pairSum e (List.ofFn x) (minus (weights (List.ofFn b') (matOf γ') (List.ofFn fun j => y' j + ∑ l, S j l • v l))
      (weights (List.ofFn b) (matOf γ) (List.ofFn fun j => y j + ∑ l, S j l • v l))) := by
  rw [twice, weights_ofFn, weights_ofFn, minus_ofFn, minus_ofFn, pairSum_ofFn, pairSum_ofFn,
    ← twice_identity (ComT.pairL e) x b b' y y' γ γ' R S T u v]
  congr 1
  simp only [pairSum, hu, zipWith_ofFn_append, List.sum_ofFn, ComT.pairL_apply]

/-- The weights of one equation differ by `Γ (y' - y)`. -/
theorem weights_same (e : G1 →ₗ[F] G2 →ₗ[F] GT) (x : Fin m → Com G1) (b : Fin m → Com G2) (y y' r : Fin n → Com G2) (γ : Fin m → Fin n → F) :
    pairSum e (List.ofFn x) (minus (weights (List.ofFn b) (matOf γ) (List.ofFn fun j => y' j + r j))
      (weights (List.ofFn b) (matOf γ) (List.ofFn fun j => y j + r j))) = ∑ i, ∑ j, γ i j • ComT.pairL e (x i) (y' j - y j) := by
  rw [weights_ofFn, weights_ofFn, minus_ofFn, pairSum_ofFn]
  refine Finset.sum_congr rfl fun i _ => ?_
  rw [add_sub_add_left_eq_sub, ← Finset.sum_sub_distrib, map_sum]
  refine Finset.sum_congr rfl fun j _ => ?_
  rw [← smul_sub, add_sub_add_right_eq_sub, map_smul]

theorem pub_inj (ty : EquType) :
    Function.Injective (pub (G1 := G1) (G2 := G2) (m := m) (n := n) (p := p) (q := q) ty) := by
  rintro ⟨a, b, c, d⟩ ⟨a', b', c', d'⟩ h
  simp only [pub, Prod.mk.injEq, List.cons.injEq, and_true] at h
  obtain ⟨h1, h2, h3, h4⟩ := h
  simp only [Prod.mk.injEq]
  exact ⟨List.ofFn_injective h1, List.ofFn_injective h2, List.ofFn_injective h3, List.ofFn_injective h4⟩

theorem viewsOn_ok {run run' : List F → Res (CProof F G1 G2 × List F)} {t : Fin N → F} {V V' : View G1 G2}
    (h : viewOn run t = .ok V) (h' : viewOn run' t = .ok V') : viewsOn run run' t = .ok (V, V') := by
  rw [viewsOn, h, h']; rfl

theorem sameViews_twice (hN : N = m * p + n * q + q * p) {run₁ run₂ run₃ run₄ : List F → Res (CProof F G1 G2 × List F)}
    {g₁ g₂ g₃ g₄ : Rands F m n p q → (Fin m → Com G1) × (Fin n → Com G2) × (Fin p → Com G2) × (Fin q → Com G1)} {ty : EquType}
    (h₁ : ∀ (t : Fin N → F) r, List.ofFn t = flat r → viewOn run₁ t = .ok (pub ty (g₁ r)))
    (h₂ : ∀ (t : Fin N → F) r, List.ofFn t = flat r → viewOn run₂ t = .ok (pub ty (g₂ r)))
    (h₃ : ∀ (t : Fin N → F) r, List.ofFn t = flat r → viewOn run₃ t = .ok (pub ty (g₃ r)))
    (h₄ : ∀ (t : Fin N → F) r, List.ofFn t = flat r → viewOn run₄ t = .ok (pub ty (g₄ r))) :
    SameViews (N := N) (viewsOn run₁ run₂) (viewsOn run₃ run₄) ↔
      ∃ φ : Rands F m n p q ≃ Rands F m n p q, ∀ r, (g₁ r, g₂ r) = (g₃ (φ r), g₄ (φ r)) :=
  sameViews_iff (g := fun r => (g₁ r, g₂ r)) (g' := fun r => (g₃ r, g₄ r)) hN ((pub_inj ty).prodMap (pub_inj ty))
    (fun t r ht => viewsOn_ok (h₁ t r ht) (h₂ t r ht)) (fun t r ht => viewsOn_ok (h₃ t r ht) (h₄ t r ht))

theorem smul_fun_inj {C ι : Type} [AddCommGroup C] [Module F C] {g : C} (hg : g ≠ 0) (r r' : ι → F) :
    (fun i => r i • g) = (fun i => r' i • g) ↔ ∀ i, r i = r' i := by
  rw [funext_iff]
  exact forall_congr' fun i => ⟨smul_cancel hg, fun h => by rw [h]⟩

end GS
