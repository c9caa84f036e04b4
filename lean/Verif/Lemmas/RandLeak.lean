import Verif.Spec.RandLeak
import Verif.Lemmas.SimKey

/-! What can be computed from the randomness recorded in a proof. -/

set_option linter.unusedSectionVars false

namespace GS

section abstract
variable {F A B C : Type} [Field F] [AddCommGroup A] [Module F A] [AddCommGroup B] [Module F B]
  [AddCommGroup C] [Module F C] (f : A →ₗ[F] B →ₗ[F] C) {m n p q : Nat}

theorem unmask_identity (x : Fin m → A) (w : Fin m → B) (R : Fin m → Fin p → F) (u : Fin p → A) :
    (∑ i, f (x i + ∑ k, R i k • u k) (w i)) - ∑ k, f (u k) (∑ i, R i k • w i) = ∑ i, f (x i) (w i) := by
  simp only [map_add, LinearMap.add_apply, Finset.sum_add_distrib, map_sum, map_smul, LinearMap.sum_apply,
    LinearMap.smul_apply]
  rw [Finset.sum_comm, add_sub_cancel_right]

theorem bystander_identity (x : Fin m → A) (b : Fin m → B) (y : Fin n → B) (γ : Fin m → Fin n → F)
    (R : Fin m → Fin p → F) (S : Fin n → Fin q → F) (T : Fin q → Fin p → F) (u : Fin p → A) (v : Fin q → B) :
    (∑ i, f (x i + ∑ k, R i k • u k) (b i + ∑ j, γ i j • (y j + ∑ l, S j l • v l))) -
      ∑ k, f (u k) (piVal b y γ R S T v k + ∑ l, T l k • v l) =
    ∑ i, f (x i) (b i + ∑ j, γ i j • (y j + ∑ l, S j l • v l)) := by
  simp only [piVal_eq, sub_add_cancel]
  exact unmask_identity f x (fun i => b i + ∑ j, γ i j • (y j + ∑ l, S j l • v l)) R u

/-- The whole proof for given randomness. -/
abbrev fullFn (u : Fin p → A) (v : Fin q → B) (a : Fin n → A) (x : Fin m → A) (b : Fin m → B) (y : Fin n → B)
    (γ : Fin m → Fin n → F) (r : Rands F m n p q) := (viewFn u v a x b y γ r, r.2.2)

/-- Two solutions give the same distribution of whole proofs exactly if they agree on the leaked terms. -/
theorem fullFn_iff {u : Fin p → A} {v : Fin q → B} {ξ : A} {η : B} {s : Fin p → F} {s' : Fin q → F}
    (hξ : ξ = ∑ k, s k • u k) (hη : η = ∑ l, s' l • v l) (hτ : f ξ η ≠ 0) (α : Fin n → F) (β : Fin m → F)
    (γ : Fin m → Fin n → F) (x x' : Fin m → F) (y y' : Fin n → F)
    (heq : (∑ j, α j * y j) + (∑ i, x i * β i) + (∑ i, ∑ j, γ i j * (x i * y j)) =
      (∑ j, α j * y' j) + (∑ i, x' i * β i) + (∑ i, ∑ j, γ i j * (x' i * y' j))) :
    (∃ φ : Rands F m n p q ≃ Rands F m n p q, ∀ r,
      fullFn u v (fun j => α j • ξ) (fun i => x i • ξ) (fun i => β i • η) (fun j => y j • η) γ r =
        fullFn u v (fun j => α j • ξ) (fun i => x' i • ξ) (fun i => β i • η) (fun j => y' j • η) γ (φ r)) ↔
    (∀ j, ∑ i, γ i j * x i = ∑ i, γ i j * x' i) ∧ ∑ i, x i * β i = ∑ i, x' i * β i := by
  constructor
  · rintro ⟨φ, h⟩
    -- the bystander's value is the same for both
    have key : ∀ S : Fin n → Fin q → F, ∑ i, (x i - x' i) • f ξ (β i • η + ∑ j, γ i j • (y j • η + ∑ l, S j l • v l)) = 0 := by
      intro S
      have h1 := h (0, S, 0)
      generalize φ (0, S, 0) = r' at h1
      obtain ⟨R', S', T'⟩ := r'
      obtain ⟨h1, hT⟩ := Prod.mk.inj h1
      simp only at hT
      subst hT
      simp only [viewFn, Prod.mk.injEq] at h1
      obtain ⟨hc, hd, hp, -⟩ := h1
      have e1 := bystander_identity f (fun i => x i • ξ) (fun i => β i • η) (fun j => y j • η) γ (0 : Fin m → Fin p → F) S 0 u v
      have e2 := bystander_identity f (fun i => x' i • ξ) (fun i => β i • η) (fun j => y' j • η) γ R' S' 0 u v
      have hc' := fun i => congrFun hc i
      have hd' := fun j => congrFun hd j
      have hp' := fun k => congrFun hp k
      simp only [← hc', ← hd', ← hp'] at e2
      have := e1.symm.trans e2
      simp only [map_smul, LinearMap.smul_apply] at this ⊢
      simp only [sub_smul, Finset.sum_sub_distrib]
      exact sub_eq_zero.mpr this
    have k0 := key 0
    simp only [Pi.zero_apply, zero_smul, Finset.sum_const_zero, add_zero] at k0
    have k1 : ∀ j l, (∑ i, (x i - x' i) * γ i j) • f ξ (v l) = 0 := by
      intro j l
      have := key (fun j' l' => if j' = j ∧ l' = l then 1 else 0)
      have hs : ∀ j', ∑ l', (if j' = j ∧ l' = l then (1 : F) else 0) • v l' = if j' = j then v l else 0 := by
        intro j'
        by_cases hj : j' = j <;> simp [hj]
      simp only [hs, smul_add, Finset.sum_add_distrib, map_add, smul_ite, smul_zero, Finset.sum_ite_eq',
        Finset.mem_univ, if_true] at this
      simp only [map_add, smul_add, Finset.sum_add_distrib] at k0
      rw [← add_assoc, k0, zero_add] at this
      rw [Finset.sum_smul]
      simpa only [map_smul, smul_smul] using this
    have hγ : ∀ j, ∑ i, (x i - x' i) * γ i j = 0 := by
      intro j
      by_contra hne
      apply hτ
      rw [hη, map_sum]
      refine Finset.sum_eq_zero fun l _ => ?_
      rw [map_smul, (smul_eq_zero.mp (k1 j l)).resolve_left hne, smul_zero]
    refine ⟨fun j => ?_, ?_⟩
    · rw [← sub_eq_zero, ← Finset.sum_sub_distrib, ← hγ j]
      exact Finset.sum_congr rfl fun i _ => by ring
    · have h1 : ∑ i, (x i - x' i) • f ξ (∑ j, γ i j • y j • η) = 0 := by
        simp only [map_sum, map_smul, Finset.smul_sum, smul_smul]
        rw [Finset.sum_comm]
        refine Finset.sum_eq_zero fun j _ => ?_
        rw [← Finset.sum_smul]
        have : ∑ i, (x i - x' i) * (γ i j * y j) = (∑ i, (x i - x' i) * γ i j) * y j := by
          rw [Finset.sum_mul]; exact Finset.sum_congr rfl fun i _ => by ring
        rw [this, hγ, zero_mul, zero_smul]
      simp only [map_add, smul_add, Finset.sum_add_distrib] at k0
      rw [h1, add_zero] at k0
      simp only [map_smul, smul_smul] at k0
      rw [← Finset.sum_smul] at k0
      have := (smul_eq_zero.mp k0).resolve_right hτ
      rw [← sub_eq_zero, ← Finset.sum_sub_distrib, ← this]
      exact Finset.sum_congr rfl fun i _ => by ring
  · rintro ⟨hγ, hb⟩
    have hγ0 : ∀ j, ∑ i, (x i - x' i) * γ i j = 0 := by
      intro j
      rw [← sub_eq_zero.mpr (hγ j), ← Finset.sum_sub_distrib]
      exact Finset.sum_congr rfl fun i _ => by ring
    have hb0 : ∑ i, (x i - x' i) * β i = 0 := by
      rw [← sub_eq_zero.mpr hb, ← Finset.sum_sub_distrib]
      exact Finset.sum_congr rfl fun i _ => by ring
    have ha0 : ∑ j, (y j - y' j) * (α j + ∑ i, γ i j * x i) = 0 := by
      have hsw : ∀ z w : Fin _ → F, (∑ i, ∑ j, γ i j * (z i * w j)) = ∑ j, w j * ∑ i, γ i j * z i := by
        intro z w
        rw [Finset.sum_comm]
        refine Finset.sum_congr rfl fun j _ => ?_
        rw [Finset.mul_sum]
        exact Finset.sum_congr rfl fun i _ => by ring
      rw [hsw, hsw, hb] at heq
      simp only [← hγ] at heq
      have : ∑ j, (y j - y' j) * (α j + ∑ i, γ i j * x i) =
          (∑ j, α j * y j) + (∑ j, y j * ∑ i, γ i j * x i) - ((∑ j, α j * y' j) + ∑ j, y' j * ∑ i, γ i j * x i) := by
        rw [← Finset.sum_add_distrib, ← Finset.sum_add_distrib, ← Finset.sum_sub_distrib]
        exact Finset.sum_congr rfl fun j _ => by ring
      rw [this]
      linear_combination heq
    refine ⟨⟨fun r => (fun i k => r.1 i k + (x i - x' i) * s k, fun j l => r.2.1 j l + (y j - y' j) * s' l, r.2.2),
      fun r => (fun i k => r.1 i k - (x i - x' i) * s k, fun j l => r.2.1 j l - (y j - y' j) * s' l, r.2.2),
      fun r => by simp, fun r => by simp⟩, ?_⟩
    rintro ⟨R, S, T⟩
    simp only [Equiv.coe_fn_mk, fullFn, viewFn, Prod.mk.injEq, and_true]
    have hd : ∀ j, y j • η + ∑ l, S j l • v l = y' j • η + ∑ l, (S j l + (y j - y' j) * s' l) • v l := by
      intro j
      have : ∑ l, (S j l + (y j - y' j) * s' l) • v l = ∑ l, S j l • v l + (y j - y' j) • η := by
        rw [hη, Finset.smul_sum, ← Finset.sum_add_distrib]
        exact Finset.sum_congr rfl fun l _ => by rw [add_smul, mul_smul]
      rw [this, sub_smul]; abel
    refine ⟨?_, funext hd, ?_, ?_⟩
    · funext i
      have : ∑ k, (R i k + (x i - x' i) * s k) • u k = ∑ k, R i k • u k + (x i - x' i) • ξ := by
        rw [hξ, Finset.smul_sum, ← Finset.sum_add_distrib]
        exact Finset.sum_congr rfl fun l _ => by rw [add_smul, mul_smul]
      rw [this, sub_smul]; abel
    · funext k
      rw [piVal_eq, piVal_eq]
      simp only [← hd]
      congr 1
      simp only [add_smul, Finset.sum_add_distrib]
      rw [left_eq_add]
      have : ∀ i, ((x i - x' i) * s k) • (β i • η + ∑ j, γ i j • (y j • η + ∑ l, S j l • v l)) =
          s k • ((x i - x' i) * β i) • η + s k • ∑ j, ((x i - x' i) * γ i j) • (y j • η + ∑ l, S j l • v l) := by
        intro i
        simp only [smul_add, Finset.smul_sum, smul_smul]
        congr 1
        · ring_nf
        · refine Finset.sum_congr rfl fun j _ => ?_
          ring_nf
      simp only [this, Finset.sum_add_distrib, ← Finset.smul_sum, ← Finset.sum_smul]
      rw [hb0, Finset.sum_comm]
      simp only [← Finset.sum_smul, hγ0]
      simp
    · funext l
      rw [thetaVal_eq, thetaVal_eq]
      congr 1
      have hx : ∀ j, ∑ i, γ i j • x' i • ξ = ∑ i, γ i j • x i • ξ := by
        intro j
        simp only [smul_smul, ← Finset.sum_smul, hγ]
      simp only [hx, add_smul, Finset.sum_add_distrib]
      rw [left_eq_add]
      have : ∀ j, ((y j - y' j) * s' l) • (α j • ξ + ∑ i, γ i j • x i • ξ) =
          s' l • ((y j - y' j) * (α j + ∑ i, γ i j * x i)) • ξ := by
        intro j
        simp only [smul_smul, ← Finset.sum_smul, ← add_smul]
        congr 1; ring
      simp only [this, ← Finset.smul_sum, ← Finset.sum_smul, ha0, zero_smul, smul_zero]

end abstract

/-! ### Tapes -/

section tapes
variable {F : Type} {m n p q N : Nat}

/-- Views through randomness. -/
theorem sameViews_iff {α V : Type} (hN : N = m * p + n * q + q * p) {view view' : (Fin N → F) → Res α}
    {g g' : Rands F m n p q → V} {out : V → α} (hout : Function.Injective out)
    (h : ∀ t r, List.ofFn t = flat r → view t = .ok (out (g r)))
    (h' : ∀ t r, List.ofFn t = flat r → view' t = .ok (out (g' r))) :
    SameViews view view' ↔ ∃ φ : Rands F m n p q ≃ Rands F m n p q, ∀ r, g r = g' (φ r) := by
  refine ⟨?_, sameViews_of hN h h'⟩
  rintro ⟨φ, hφ⟩
  obtain ⟨E, hE⟩ := exists_tapeEquiv (F := F) (m := m) (n := n) (p := p) (q := q) hN
  refine ⟨(E.trans φ).trans E.symm, fun r => hout ?_⟩
  obtain ⟨v, h1, h2⟩ := hφ (E r)
  rw [h _ r (hE r)] at h1
  rw [h' _ (E.symm (φ (E r))) (by rw [← hE, E.apply_symm_apply])] at h2
  cases h1
  exact (Except.ok.inj h2).symm

end tapes

variable {F G1 G2 GT : Type} [Field F] [AddCommGroup G1] [Module F G1] [AddCommGroup G2] [Module F G2]
  [AddCommGroup GT] [Module F GT] {m n p q N : Nat}

/-- Commitments and the whole proof as lists. -/
def fullPub (ty : EquType) (V : ((Fin m → Com G1) × (Fin n → Com G2) × (Fin p → Com G2) × (Fin q → Com G1)) × (Fin q → Fin p → F)) :
    List (Com G1) × List (Com G2) × List (EquProof F G1 G2) :=
  (List.ofFn V.1.1, List.ofFn V.1.2.1, [⟨List.ofFn V.1.2.2.1, List.ofFn V.1.2.2.2, ty, matOf V.2⟩])

theorem fullPub_inj (ty : EquType) :
    Function.Injective (fullPub (F := F) (G1 := G1) (G2 := G2) (m := m) (n := n) (p := p) (q := q) ty) := by
  rintro ⟨⟨a, b, c, d⟩, t⟩ ⟨⟨a', b', c', d'⟩, t'⟩ h
  simp only [fullPub, Prod.mk.injEq, List.cons.injEq, EquProof.mk.injEq, and_true, true_and] at h
  obtain ⟨h1, h2, h3, h4, h5⟩ := h
  simp only [Prod.mk.injEq]
  exact ⟨⟨List.ofFn_injective h1, List.ofFn_injective h2, List.ofFn_injective h3, List.ofFn_injective h4⟩, matOf_inj.mp h5⟩

theorem proofsOn_ok {run : List F → Res (CProof F G1 G2 × List F)} {t : Fin N → F} {l : List F} (h : List.ofFn t = l)
    {cp : CProof F G1 G2} {v : List (Com G1) × List (Com G2) × List (EquProof F G1 G2)} (hr : run l = .ok (cp, []))
    (hv : (cp.xcoms.coms, cp.ycoms.coms, cp.equ_proofs) = v) : proofsOn run t = .ok v := by
  rw [proofsOn, h, hr, ← hv]; rfl

variable {sch : Nat → Scheduler} {crs : CRS G1 G2 GT}

theorem zipWith_ofFn_append {α β γ : Type} (f : α → β → γ) (x : Fin n → α) (y : Fin n → β) (l : List α) :
    List.zipWith f (List.ofFn x ++ l) (List.ofFn y) = List.ofFn fun i => f (x i) (y i) := by
  rw [← zipWith_ofFn, ← List.append_nil (List.ofFn y), List.zipWith_append (by simp)]
  simp

theorem zipWith_append_ofFn {α β γ : Type} (f : α → β → γ) (x : Fin n → α) (y : Fin n → β) (l : List β) :
    List.zipWith f (List.ofFn x) (List.ofFn y ++ l) = List.ofFn fun i => f (x i) (y i) := by
  rw [← zipWith_ofFn, ← List.append_nil (List.ofFn x), List.zipWith_append (by simp)]
  simp

theorem weights_ofFn (b : Fin m → Com G2) (γ : Fin m → Fin n → F) (d : Fin n → Com G2) :
    weights (List.ofFn b) (matOf γ) (List.ofFn d) = List.ofFn fun i => b i + ∑ j, γ i j • d j := by
  simp only [weights, matOf, zipWith_ofFn, List.sum_ofFn]

theorem pairSum_ofFn (e : G1 →ₗ[F] G2 →ₗ[F] GT) (c : Fin n → Com G1) (d : Fin n → Com G2) :
    pairSum e (List.ofFn c) (List.ofFn d) = ∑ i, ComT.pairL e (c i) (d i) := by
  simp only [pairSum, zipWith_ofFn, List.sum_ofFn, ComT.pairL_apply]

theorem bystander_ofFn (e : G1 →ₗ[F] G2 →ₗ[F] GT) {u : Fin p → Com G1} {u' : List (Com G1)} {v : Fin q → Com G2} {v' : List (Com G2)}
    (hu : crs.u = List.ofFn u ++ u') (hv : crs.v = List.ofFn v ++ v') (x : Fin m → Com G1) (b : Fin m → Com G2)
    (y : Fin n → Com G2) (γ : Fin m → Fin n → F) (R : Fin m → Fin p → F) (S : Fin n → Fin q → F) (T : Fin q → Fin p → F)
    (th : List (Com G1)) (ty : EquType) :
    bystander e crs (List.ofFn b) (matOf γ) (List.ofFn fun i => x i + ∑ k, R i k • u k)
      (List.ofFn fun j => y j + ∑ l, S j l • v l) ⟨List.ofFn (piVal b y γ R S T v), th, ty, matOf T⟩ =
    pairSum e (List.ofFn x) (weights (List.ofFn b) (matOf γ) (List.ofFn fun j => y j + ∑ l, S j l • v l)) := by
  have hm : unmask crs.v (⟨List.ofFn (piVal b y γ R S T v), th, ty, matOf T⟩ : EquProof F G1 G2) =
      List.ofFn fun k => piVal b y γ R S T v k + ∑ l, T l k • v l := by
    apply List.ext_getElem
    · simp [unmask]
    · intro k h1 h2
      have hk : k < p := by simpa using h2
      simp only [unmask, List.getElem_mapIdx, hv, matOf, zipWith_append_ofFn, List.sum_ofFn, List.getElem_ofFn]
      congr 1
      refine Finset.sum_congr rfl fun l _ => ?_
      simp [List.getD, hk]
  rw [bystander, weights_ofFn, pairSum_ofFn, pairSum_ofFn, hm]
  rw [← bystander_identity (ComT.pairL e) x b y γ R S T u v]
  congr 1
  simp only [pairSum, hu, zipWith_ofFn_append, List.sum_ofFn, ComT.pairL_apply]

theorem colSums_ofFn {G : Type} [AddCommGroup G] [Module F G] (γ : Fin m → Fin n → F) (x : Fin m → G) :
    colSums n (matOf γ) (List.ofFn x) = List.ofFn fun j => ∑ i, γ i j • x i := by
  apply List.ext_getElem
  · simp [colSums]
  · intro j h1 h2
    have hj : j < n := by simpa using h2
    simp only [colSums, matOf, List.getElem_map, List.getElem_range, zipWith_ofFn, List.sum_ofFn, List.getElem_ofFn]
    refine Finset.sum_congr rfl fun i _ => ?_
    simp [List.getD, hj]

theorem colSums_smul_inj {G : Type} [AddCommGroup G] [Module F G] {g : G} (hg : g ≠ 0) (γ : Fin m → Fin n → F) (x x' : Fin m → F) :
    colSums n (matOf γ) (List.ofFn fun i => x i • g) = colSums n (matOf γ) (List.ofFn fun i => x' i • g) ↔
      ∀ j, ∑ i, γ i j * x i = ∑ i, γ i j * x' i := by
  rw [colSums_ofFn, colSums_ofFn, List.ofFn_inj, funext_iff]
  refine forall_congr' fun j => ?_
  simp only [smul_smul, ← Finset.sum_smul]
  rw [← sub_eq_zero, ← sub_smul, smul_eq_zero, or_iff_left hg, sub_eq_zero]

theorem colSums_inj (γ : Fin m → Fin n → F) (x x' : Fin m → F) :
    colSums n (matOf γ) (List.ofFn x) = colSums n (matOf γ) (List.ofFn x') ↔
      ∀ j, ∑ i, γ i j * x i = ∑ i, γ i j * x' i := by
  rw [colSums_ofFn, colSums_ofFn, List.ofFn_inj, funext_iff]
  rfl

/-- Multiples of an equation in scalars. -/
theorem equLhs_scalar {A B C : Type} [AddCommGroup C] [Module F C] (f : A → B → C) (φ : F → A) (ψ : F → B) (τ : C)
    (h : ∀ x y, f (φ x) (ψ y) = (x * y) • τ) (α : Fin n → F) (x : Fin m → F) (β : Fin m → F) (y : Fin n → F) (γ : Fin m → Fin n → F) :
    equLhs f (List.ofFn fun j => φ (α j)) (List.ofFn fun i => φ (x i)) (List.ofFn fun i => ψ (β i)) (List.ofFn fun j => ψ (y j))
      (matOf γ) = ((∑ j, α j * y j) + (∑ i, x i * β i) + ∑ i, ∑ j, γ i j * (x i * y j)) • τ := by
  rw [equLhs_ofFn]
  simp only [h, add_smul, Finset.sum_smul, smul_smul]

theorem smul_cancel {C : Type} [AddCommGroup C] [Module F C] {τ : C} (hτ : τ ≠ 0) {r r' : F} (h : r • τ = r' • τ) : r = r' := by
  rw [← sub_eq_zero, ← sub_smul, smul_eq_zero, or_iff_left hτ, sub_eq_zero] at h
  exact h

theorem sum_smul_inj {C ι : Type} [Fintype ι] [AddCommGroup C] [Module F C] {τ : C} (hτ : τ ≠ 0) (r r' : ι → F) :
    (∑ i, r i • τ = ∑ i, r' i • τ) ↔ ∑ i, r i = ∑ i, r' i := by
  rw [← Finset.sum_smul, ← Finset.sum_smul]
  exact ⟨smul_cancel hτ, fun h => by rw [h]⟩

theorem exists_scalars {G ι : Type} [AddCommGroup G] [Module F G] {g : G} (hc : ∀ x : G, ∃ k : F, x = k • g) (x : ι → G) :
    ∃ k : ι → F, x = fun i => k i • g := by
  choose k hk using hc
  exact ⟨fun i => k (x i), funext fun i => hk (x i)⟩

theorem PPE.full_eq {self : PPE F G1 G2 GT} (hm : 0 < m) (hn : 0 < n) {a : Fin n → G1} {b : Fin m → G2}
    {γ : Fin m → Fin n → F} (ha : self.a_consts = List.ofFn a) (hb : self.b_consts = List.ofFn b)
    (hγ : self.gamma = matOf γ) (x : Fin m → G1) (y : Fin n → G2) {u0 u1 : Com G1} {v0 v1 : Com G2}
    (hu : crs.u = [u0, u1]) (hv : crs.v = [v0, v1]) (t : Fin (2 * m + 2 * n + 4) → F) (r : Rands F m n 2 2)
    (ht : List.ofFn t = flat r) :
    proofsOn (fun rng => self.commitAndProve sch (List.ofFn x) (List.ofFn y) crs rng) t =
      .ok (fullPub .PairingProduct (fullFn ![u0, u1] ![v0, v1] (fun j => i1 (F := F) (a j)) (fun i => i1 (F := F) (x i))
        (fun i => i2 (F := F) (b i)) (fun j => i2 (F := F) (y j)) γ r)) := by
  refine proofsOn_ok ht (PPE.cap_draws hm hn ha hb hγ x y hu hv (R := r.1) (S := r.2.1) (T := r.2.2) (rng' := [])
    (rng := flat r) ?_) ?_
  · have := draws_tape' (F := F) (G1 := G1) (G2 := G2) (l := flat r) (n := 2 * m + 2 * n + 4)
      (by rw [flat_length]; omega) []
    rw [List.append_nil] at this
    exact this
  · simp only [fullPub, viewFn, groupCom_sum]; rfl

theorem MSMEG1.full_eq {self : MSMEG1 F G1} (hm : 0 < m) (hn : 0 < n) {a : Fin n → G1} {b : Fin m → F}
    {γ : Fin m → Fin n → F} (ha : self.a_consts = List.ofFn a) (hb : self.b_consts = List.ofFn b)
    (hγ : self.gamma = matOf γ) (x : Fin m → G1) (y : Fin n → F) {u0 u1 : Com G1} {v0 v1 : Com G2}
    (hu : crs.u = [u0, u1]) (hv : crs.v = [v0, v1]) (t : Fin (2 * m + n + 2) → F) (r : Rands F m n 2 1)
    (ht : List.ofFn t = flat r) :
    proofsOn (fun rng => self.commitAndProve sch (List.ofFn x) (List.ofFn y) crs rng) t =
      .ok (fullPub .MultiScalarG1 (fullFn ![u0, u1] ![v0] (fun j => i1 (F := F) (a j)) (fun i => i1 (F := F) (x i))
        (fun i => b i • (v1 + ⟨0, crs.g2_gen⟩)) (fun j => y j • (v1 + ⟨0, crs.g2_gen⟩)) γ r)) := by
  refine proofsOn_ok ht (MSMEG1.cap_draws hm hn ha hb hγ x y hu hv (R := r.1) (S := r.2.1) (T := r.2.2) (rng' := [])
    (rng := flat r) ?_) ?_
  · have := draws_tape' (F := F) (G1 := G1) (G2 := G2) (l := flat r) (n := 2 * m + n + 2)
      (by rw [flat_length]; omega) []
    rw [List.append_nil] at this
    exact this
  · simp only [fullPub, viewFn, groupCom_sum, scalarCom_sum]; rfl

theorem MSMEG2.full_eq {self : MSMEG2 F G2} (hm : 0 < m) (hn : 0 < n) {a : Fin n → F} {b : Fin m → G2}
    {γ : Fin m → Fin n → F} (ha : self.a_consts = List.ofFn a) (hb : self.b_consts = List.ofFn b)
    (hγ : self.gamma = matOf γ) (x : Fin m → F) (y : Fin n → G2) {u0 u1 : Com G1} {v0 v1 : Com G2}
    (hu : crs.u = [u0, u1]) (hv : crs.v = [v0, v1]) (t : Fin (m + 2 * n + 2) → F) (r : Rands F m n 1 2)
    (ht : List.ofFn t = flat r) :
    proofsOn (fun rng => self.commitAndProve sch (List.ofFn x) (List.ofFn y) crs rng) t =
      .ok (fullPub .MultiScalarG2 (fullFn ![u0] ![v0, v1] (fun j => a j • (u1 + ⟨0, crs.g1_gen⟩)) (fun i => x i • (u1 + ⟨0, crs.g1_gen⟩))
        (fun i => i2 (F := F) (b i)) (fun j => i2 (F := F) (y j)) γ r)) := by
  refine proofsOn_ok ht (MSMEG2.cap_draws hm hn ha hb hγ x y hu hv (R := r.1) (S := r.2.1) (T := r.2.2) (rng' := [])
    (rng := flat r) ?_) ?_
  · have := draws_tape' (F := F) (G1 := G1) (G2 := G2) (l := flat r) (n := m + 2 * n + 2)
      (by rw [flat_length]; omega) []
    rw [List.append_nil] at this
    exact this
  · simp only [fullPub, viewFn, groupCom_sum, scalarCom_sum]; rfl

theorem QuadEqu.full_eq {self : QuadEqu F} (hm : 0 < m) (hn : 0 < n) {a : Fin n → F} {b : Fin m → F}
    {γ : Fin m → Fin n → F} (ha : self.a_consts = List.ofFn a) (hb : self.b_consts = List.ofFn b)
    (hγ : self.gamma = matOf γ) (x : Fin m → F) (y : Fin n → F) {u0 u1 : Com G1} {v0 v1 : Com G2}
    (hu : crs.u = [u0, u1]) (hv : crs.v = [v0, v1]) (t : Fin (m + n + 1) → F) (r : Rands F m n 1 1)
    (ht : List.ofFn t = flat r) :
    proofsOn (fun rng => self.commitAndProve sch (List.ofFn x) (List.ofFn y) crs rng) t =
      .ok (fullPub .Quadratic (fullFn ![u0] ![v0] (fun j => a j • (u1 + ⟨0, crs.g1_gen⟩)) (fun i => x i • (u1 + ⟨0, crs.g1_gen⟩))
        (fun i => b i • (v1 + ⟨0, crs.g2_gen⟩)) (fun j => y j • (v1 + ⟨0, crs.g2_gen⟩)) γ r)) := by
  refine proofsOn_ok ht (QuadEqu.cap_draws hm hn ha hb hγ x y hu hv (R := r.1) (S := r.2.1) (T := r.2.2) (rng' := [])
    (rng := flat r) ?_) ?_
  · have := draws_tape' (F := F) (G1 := G1) (G2 := G2) (l := flat r) (n := m + n + 1)
      (by rw [flat_length]; omega) []
    rw [List.append_nil] at this
    exact this
  · simp only [fullPub, viewFn, scalarCom_sum]; rfl

end GS
