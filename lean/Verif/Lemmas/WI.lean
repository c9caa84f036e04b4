import Verif.Spec.Hiding
import Verif.Lemmas.Identity
import Verif.Lemmas.Cap
import Mathlib.LinearAlgebra.Finsupp.LinearCombination

/-! The set of views of a prover on a hiding key, and equivalence of two provers. -/

set_option linter.unusedSectionVars false
set_option linter.unusedVariables false

namespace GS

/-! ### Distributions -/

section dist
variable {F : Type} [Fintype F] [Nonempty F]

theorem uniform_map_equiv {X : Type} [Fintype X] [Nonempty X] (φ : X ≃ X) :
    (PMF.uniformOfFintype X).map φ = PMF.uniformOfFintype X := by
  classical
  ext x
  rw [PMF.map_apply, tsum_eq_single (φ.symm x)]
  · simp
  · intro y hy
    rw [if_neg]
    rintro rfl
    simp at hy

theorem SameViews.dist {α : Type} {N : Nat} {view view' : (Fin N → F) → Res α} (h : SameViews view view') :
    GS.dist view = GS.dist view' := by
  obtain ⟨φ, h⟩ := h
  have : view = view' ∘ φ := by
    funext t
    obtain ⟨v, h1, h2⟩ := h t
    rw [Function.comp, h1, h2]
  rw [GS.dist, GS.dist, this, ← PMF.map_comp, uniform_map_equiv]

end dist

/-- Two injective functions with the same range differ by a bijection of the source. -/
theorem exists_equiv_of_range {X V : Type} {f g : X → V} (hf : Function.Injective f) (hg : Function.Injective g)
    (h : ∀ v, (∃ x, f x = v) ↔ ∃ x, g x = v) : ∃ φ : X ≃ X, ∀ x, f x = g (φ x) := by
  have h1 : ∀ x, ∃ x', g x' = f x := fun x => (h _).mp ⟨x, rfl⟩
  choose φ hφ using h1
  refine ⟨Equiv.ofBijective φ ⟨fun x x' hx => hf ?_, fun x => ?_⟩, fun x => (hφ x).symm⟩
  · rw [← hφ x, ← hφ x', hx]
  · obtain ⟨x', hx'⟩ := (h _).mpr ⟨x, rfl⟩
    exact ⟨x', hg ((hφ x').trans hx')⟩

/-! ### Views over abstract modules -/

section core
variable {F A B C : Type} [Field F] [AddCommGroup A] [Module F A] [AddCommGroup B] [Module F B]
  [AddCommGroup C] [Module F C] (f : A →ₗ[F] B →ₗ[F] C) {m n p q : Nat}

/-- The randomness of a run. -/
abbrev Rands (F : Type) (m n p q : Nat) : Type :=
  (Fin m → Fin p → F) × (Fin n → Fin q → F) × (Fin q → Fin p → F)

/-- Commitments and proof for given randomness. -/
def viewFn (u : Fin p → A) (v : Fin q → B) (a : Fin n → A) (x : Fin m → A) (b : Fin m → B) (y : Fin n → B) (γ : Fin m → Fin n → F) (r : Rands F m n p q) :
    (Fin m → A) × (Fin n → B) × (Fin p → B) × (Fin q → A) :=
  (fun i => x i + ∑ k, r.1 i k • u k, fun j => y j + ∑ l, r.2.1 j l • v l,
    piVal b y γ r.1 r.2.1 r.2.2 v, thetaVal a x γ r.2.1 r.2.2 u)

/-- No nontrivial linear relation. -/
def Indep (u : Fin p → A) : Prop := ∀ r : Fin p → F, ∑ k, r k • u k = 0 → r = 0

theorem Indep.inj {u : Fin p → A} (hu : Indep (F := F) u) {r r' : Fin p → F}
    (h : ∑ k, r k • u k = ∑ k, r' k • u k) : r = r' := by
  have := hu (r - r') (by simp [sub_smul, Finset.sum_sub_distrib, h])
  exact sub_eq_zero.mp this

theorem viewFn_inj {u : Fin p → A} {v : Fin q → B} (hu : Indep (F := F) u) (hv : Indep (F := F) v) (a : Fin n → A)
    (x : Fin m → A) (b : Fin m → B) (y : Fin n → B) (γ : Fin m → Fin n → F) : Function.Injective (viewFn u v a x b y γ) := by
  rintro ⟨R, S, T⟩ ⟨R', S', T'⟩ h
  simp only [viewFn, Prod.mk.injEq] at h
  obtain ⟨h1, h2, -, h4⟩ := h
  have hR : R = R' := by
    funext i; exact hu.inj (add_left_cancel (congrFun h1 i))
  have hS : S = S' := by
    funext j; exact hv.inj (add_left_cancel (congrFun h2 j))
  subst hR hS
  have hT : T = T' := by
    funext l
    have := congrFun h4 l
    rw [thetaVal_eq, thetaVal_eq] at this
    exact hu.inj (add_left_cancel this)
  rw [hT]

theorem viewFn_range {u : Fin p → A} {v : Fin q → B} {a : Fin n → A} {x : Fin m → A} {b : Fin m → B} {y : Fin n → B} (γ : Fin m → Fin n → F)
    (ha : ∀ j, a j ∈ Submodule.span F (Set.range u)) (hx : ∀ i, x i ∈ Submodule.span F (Set.range u))
    (hy : ∀ j, y j ∈ Submodule.span F (Set.range v))
    (hf : ∀ δ : Fin p → B, ∑ k, f (u k) (δ k) = 0 → δ = 0)
    (w : (Fin m → A) × (Fin n → B) × (Fin p → B) × (Fin q → A)) :
    (∃ r, viewFn u v a x b y γ r = w) ↔
      (∀ i, w.1 i ∈ Submodule.span F (Set.range u)) ∧ (∀ j, w.2.1 j ∈ Submodule.span F (Set.range v)) ∧
      (∀ l, w.2.2.2 l ∈ Submodule.span F (Set.range u)) ∧
      (∑ j, f (a j) (w.2.1 j)) + (∑ i, f (w.1 i) (b i)) + (∑ i, f (w.1 i) (∑ j, γ i j • w.2.1 j)) =
        ((∑ j, f (a j) (y j)) + (∑ i, f (x i) (b i)) + ∑ i, ∑ j, γ i j • f (x i) (y j)) +
        (∑ k, f (u k) (w.2.2.1 k)) + ∑ l, f (w.2.2.2 l) (v l) := by
  have hsum : ∀ {A : Type} [AddCommGroup A] [Module F A] {p : Nat} (u : Fin p → A) (r : Fin p → F),
      ∑ k, r k • u k ∈ Submodule.span F (Set.range u) := fun u r =>
    Submodule.sum_mem _ fun k _ => Submodule.smul_mem _ _ (Submodule.subset_span ⟨k, rfl⟩)
  constructor
  · rintro ⟨⟨R, S, T⟩, rfl⟩
    refine ⟨fun i => Submodule.add_mem _ (hx i) (hsum _ _), fun j => Submodule.add_mem _ (hy j) (hsum _ _), ?_, ?_⟩
    · intro l
      simp only [viewFn, thetaVal_eq]
      refine Submodule.add_mem _ (Submodule.sum_mem _ fun j _ => Submodule.smul_mem _ _ (Submodule.add_mem _ (ha j)
        (Submodule.sum_mem _ fun i _ => Submodule.smul_mem _ _ (hx i)))) (hsum _ _)
    · exact gs_identity f a x b y γ R S T u v _ _ (fun _ => rfl) (fun _ => rfl)
  · obtain ⟨c, d, π, θ⟩ := w
    rintro ⟨hc, hd, hθ, h⟩
    simp only at hc hd hθ h
    have h1 : ∀ i, ∃ r : Fin p → F, ∑ k, r k • u k = c i - x i := fun i =>
      (Submodule.mem_span_range_iff_exists_fun F).mp (Submodule.sub_mem _ (hc i) (hx i))
    choose R hR using h1
    have h2 : ∀ j, ∃ r : Fin q → F, ∑ k, r k • v k = d j - y j := fun j =>
      (Submodule.mem_span_range_iff_exists_fun F).mp (Submodule.sub_mem _ (hd j) (hy j))
    choose S hS using h2
    have h3 : ∀ l, ∃ r : Fin p → F, ∑ k, r k • u k = θ l - ∑ j, S j l • (a j + ∑ i, γ i j • x i) := fun l =>
      (Submodule.mem_span_range_iff_exists_fun F).mp (Submodule.sub_mem _ (hθ l)
        (Submodule.sum_mem _ fun j _ => Submodule.smul_mem _ _ (Submodule.add_mem _ (ha j)
        (Submodule.sum_mem _ fun i _ => Submodule.smul_mem _ _ (hx i)))))
    choose T hT using h3
    have hc' : ∀ i, c i = x i + ∑ k, R i k • u k := fun i => by rw [hR]; abel
    have hd' : ∀ j, d j = y j + ∑ k, S j k • v k := fun i => by rw [hS]; abel
    have hθ' : thetaVal a x γ S T u = θ := by
      funext l; rw [thetaVal_eq, hT]; abel
    refine ⟨(R, S, T), ?_⟩
    have hid := gs_identity f a x b y γ R S T u v _ _ hc' hd'
    rw [hid, hθ', add_left_inj, add_right_inj] at h
    have h0 : ∑ k, f (u k) ((piVal b y γ R S T v - π) k) = 0 := by
      simp only [Pi.sub_apply, map_sub, Finset.sum_sub_distrib]
      rw [h, sub_self]
    have := sub_eq_zero.mp (hf _ h0)
    simp only [viewFn, this, hθ', Prod.mk.injEq]
    exact ⟨funext fun i => (hc' i).symm, funext fun j => (hd' j).symm, trivial⟩

/-- Two witnesses with the same value: the same views. -/
theorem viewFn_equiv {u : Fin p → A} {v : Fin q → B} (hu : Indep (F := F) u) (hv : Indep (F := F) v)
    (hf : ∀ δ : Fin p → B, ∑ k, f (u k) (δ k) = 0 → δ = 0) {a : Fin n → A} {x x' : Fin m → A} {b : Fin m → B} {y y' : Fin n → B} (γ : Fin m → Fin n → F)
    (ha : ∀ j, a j ∈ Submodule.span F (Set.range u)) (hx : ∀ i, x i ∈ Submodule.span F (Set.range u))
    (hx' : ∀ i, x' i ∈ Submodule.span F (Set.range u))
    (hy : ∀ j, y j ∈ Submodule.span F (Set.range v)) (hy' : ∀ j, y' j ∈ Submodule.span F (Set.range v))
    (h : ((∑ j, f (a j) (y j)) + (∑ i, f (x i) (b i)) + ∑ i, ∑ j, γ i j • f (x i) (y j)) =
      ((∑ j, f (a j) (y' j)) + (∑ i, f (x' i) (b i)) + ∑ i, ∑ j, γ i j • f (x' i) (y' j))) :
    ∃ φ : Rands F m n p q ≃ Rands F m n p q, ∀ r, viewFn u v a x b y γ r = viewFn u v a x' b y' γ (φ r) := by
  refine exists_equiv_of_range (viewFn_inj hu hv ..) (viewFn_inj hu hv ..) fun w => ?_
  rw [viewFn_range f γ ha hx hy hf, viewFn_range f γ ha hx' hy' hf, h]

end core

/-! ### Tapes -/

section tapes
variable {F : Type} {m n p q N : Nat}

/-- The tape of the draws. -/
def flat (r : Rands F m n p q) : List F := (matOf r.1).flatten ++ (matOf r.2.1).flatten ++ (matOf r.2.2).flatten

theorem flat_length (r : Rands F m n p q) : (flat r).length = m * p + n * q + q * p := by
  simp only [flat, List.length_append, flatten_matOf_length]

theorem flat_inj {r r' : Rands F m n p q} (h : flat r = flat r') : r = r' := by
  obtain ⟨R, S, T⟩ := r
  obtain ⟨R', S', T'⟩ := r'
  simp only [flat] at h
  obtain ⟨h1, h2⟩ := List.append_inj h (by simp only [List.length_append, flatten_matOf_length])
  obtain ⟨h3, h4⟩ := List.append_inj h1 (by simp only [flatten_matOf_length])
  rw [flatten_matOf_inj h2, flatten_matOf_inj h3, flatten_matOf_inj h4]

theorem exists_flat (l : List F) (h : l.length = m * p + n * q + q * p) : ∃ r : Rands F m n p q, l = flat r := by
  obtain ⟨R, hR⟩ := exists_flatten (l := l.take (m * p)) (m := m) (n := p) (by rw [List.length_take]; omega)
  obtain ⟨S, hS⟩ := exists_flatten (l := (l.drop (m * p)).take (n * q)) (m := n) (n := q) (by
    rw [List.length_take, List.length_drop]; omega)
  obtain ⟨T, hT⟩ := exists_flatten (l := (l.drop (m * p)).drop (n * q)) (m := q) (n := p) (by
    rw [List.length_drop, List.length_drop]; omega)
  refine ⟨(R, S, T), ?_⟩
  simp only [flat]
  rw [← hR, ← hS, ← hT, List.append_assoc, List.take_append_drop, List.take_append_drop]

/-- Tapes are the same as randomness. -/
theorem exists_tapeEquiv (hN : N = m * p + n * q + q * p) :
    ∃ E : Rands F m n p q ≃ (Fin N → F), ∀ r, List.ofFn (E r) = flat r := by
  have h : ∀ r : Rands F m n p q, ∃ t : Fin N → F, flat r = List.ofFn t := fun r =>
    exists_ofFn _ (by rw [flat_length, hN])
  choose g hg using h
  refine ⟨Equiv.ofBijective g ⟨fun r r' hr => flat_inj (by rw [hg, hg, hr]), fun t => ?_⟩, fun r => (hg r).symm⟩
  obtain ⟨r, hr⟩ := exists_flat (m := m) (n := n) (p := p) (q := q) (List.ofFn t) (by simp [hN])
  exact ⟨r, List.ofFn_injective (by rw [← hg, hr])⟩

/-- Views through randomness. -/
theorem sameViews_of {α V : Type} (hN : N = m * p + n * q + q * p) {view view' : (Fin N → F) → Res α}
    {g g' : Rands F m n p q → V} {out : V → α}
    (h : ∀ t r, List.ofFn t = flat r → view t = .ok (out (g r)))
    (h' : ∀ t r, List.ofFn t = flat r → view' t = .ok (out (g' r)))
    (hφ : ∃ φ : Rands F m n p q ≃ Rands F m n p q, ∀ r, g r = g' (φ r)) : SameViews view view' := by
  obtain ⟨E, hE⟩ := exists_tapeEquiv (F := F) (m := m) (n := n) (p := p) (q := q) hN
  obtain ⟨φ, hφ⟩ := hφ
  refine ⟨(E.symm.trans φ).trans E, fun t => ⟨out (g (E.symm t)), h _ _ ?_, ?_⟩⟩
  · rw [← hE, E.apply_symm_apply]
  · rw [hφ]
    exact h' _ _ (hE _)

end tapes
end GS
