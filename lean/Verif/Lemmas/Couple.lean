import Verif.Lemmas.Simulate
import Mathlib.Logic.Equiv.Fin.Basic

/-! Two randomized programs run side by side on tapes related by a bijection. -/

set_option linter.unusedSectionVars false
set_option linter.unusedVariables false

namespace GS

section couple
variable {F α α' β β' : Type}

/-- Both programs use up exactly `N` scalars, and for a bijection of tapes their results are related. -/
def Coupled (N : Nat) (run : List F → Res (α × List F)) (run' : List F → Res (α' × List F)) (Rel : α → α' → Prop) :
    Prop :=
  ∃ φ : (Fin N → F) ≃ (Fin N → F), ∀ t, ∃ a a', Rel a a' ∧ ∀ rest, run (List.ofFn t ++ rest) = .ok (a, rest) ∧
    run' (List.ofFn (φ t) ++ rest) = .ok (a', rest)

theorem Coupled.pure {a : α} {a' : α'} {Rel : α → α' → Prop} (h : Rel a a') :
    Coupled (F := F) 0 (fun s => .ok (a, s)) (fun s => .ok (a', s)) Rel :=
  ⟨Equiv.refl _, fun t => ⟨a, a', h, fun rest => by simp⟩⟩

theorem Coupled.congr {N M : Nat} {run run₂ : List F → Res (α × List F)} {run' run₂' : List F → Res (α' × List F)}
    {Rel Rel₂ : α → α' → Prop} (h : Coupled N run run' Rel) (hN : N = M) (h1 : run = run₂) (h2 : run' = run₂')
    (hR : ∀ a a', Rel a a' → Rel₂ a a') : Coupled M run₂ run₂' Rel₂ := by
  subst hN h1 h2
  obtain ⟨φ, h⟩ := h
  refine ⟨φ, fun t => ?_⟩
  obtain ⟨a, a', h1, h2⟩ := h t
  exact ⟨a, a', hR _ _ h1, h2⟩

theorem Coupled.bind {N M : Nat} {run : List F → Res (α × List F)} {run' : List F → Res (α' × List F)}
    {Rel : α → α' → Prop} {Rel' : β → β' → Prop} {k : α → List F → Res (β × List F)} {k' : α' → List F → Res (β' × List F)}
    (h : Coupled N run run' Rel) (hk : ∀ a a', Rel a a' → Coupled M (k a) (k' a') Rel') :
    Coupled (N + M) (fun s => run s >>= fun r => k r.1 r.2) (fun s => run' s >>= fun r => k' r.1 r.2) Rel' := by
  obtain ⟨φ, h⟩ := h
  choose A A' hA hr using h
  choose ψ hψ using fun t => hk _ _ (hA t)
  refine ⟨((Fin.appendEquiv N M).symm.trans (Equiv.prodShear φ ψ)).trans (Fin.appendEquiv N M), fun t => ?_⟩
  obtain ⟨⟨t1, t2⟩, rfl⟩ := (Fin.appendEquiv N M).surjective t
  obtain ⟨b, b', hb, hb'⟩ := hψ t1 t2
  refine ⟨b, b', hb, fun rest => ?_⟩
  have h1 : List.ofFn (Fin.appendEquiv N M (t1, t2)) = List.ofFn t1 ++ List.ofFn t2 := List.ofFn_fin_append _ _
  have h2 : List.ofFn ((((Fin.appendEquiv N M).symm.trans (Equiv.prodShear φ ψ)).trans (Fin.appendEquiv N M))
      (Fin.appendEquiv N M (t1, t2))) = List.ofFn (φ t1) ++ List.ofFn (ψ t1 t2) := by
    rw [Equiv.trans_apply, Equiv.trans_apply, Equiv.symm_apply_apply]
    exact List.ofFn_fin_append _ _
  rw [h1, h2]
  simp only [List.append_assoc]
  rw [(hr t1 _).1, (hr t1 _).2]
  exact hb' rest

theorem Coupled.map {N : Nat} {run : List F → Res (α × List F)} {run' : List F → Res (α' × List F)}
    {Rel : α → α' → Prop} {Rel' : β → β' → Prop} {f : α → β} {f' : α' → β'}
    (h : Coupled N run run' Rel) (hf : ∀ a a', Rel a a' → Rel' (f a) (f' a')) :
    Coupled N (fun s => run s >>= fun r => .ok (f r.1, r.2)) (fun s => run' s >>= fun r => .ok (f' r.1, r.2)) Rel' :=
  (h.bind (k := fun a s => .ok (f a, s)) (k' := fun a s => .ok (f' a, s)) fun a a' ha => Coupled.pure (hf a a' ha))

/-- Coupled programs produce the same views. -/
theorem Coupled.sameViews {N : Nat} {V : Type} {run run' : List F → Res (α × List F)} {view : α → V}
    (h : Coupled N run run' fun a a' => view a = view a') :
    SameViews (N := N) (fun t => (run (List.ofFn t)).map fun r => view r.1)
      (fun t => (run' (List.ofFn t)).map fun r => view r.1) := by
  obtain ⟨φ, h⟩ := h
  refine ⟨φ, fun t => ?_⟩
  obtain ⟨a, a', h1, h2⟩ := h t
  obtain ⟨h2, h3⟩ := h2 []
  rw [List.append_nil] at h2 h3
  refine ⟨view a, ?_, ?_⟩
  · simp only [h2]; rfl
  · simp only [h3, h1]; rfl

/-- Matrices and tapes. -/
theorem exists_matEquiv {k l N : Nat} (hN : N = k * l) :
    ∃ E : (Fin k → Fin l → F) ≃ (Fin N → F), ∀ T, List.ofFn (E T) = (matOf T).flatten := by
  have h : ∀ T : Fin k → Fin l → F, ∃ t : Fin N → F, (matOf T).flatten = List.ofFn t := fun r =>
    exists_ofFn _ (by rw [flatten_matOf_length, hN])
  choose g hg using h
  refine ⟨Equiv.ofBijective g ⟨fun r r' hr => flatten_matOf_inj (by rw [hg, hg, hr]), fun t => ?_⟩,
    fun r => (hg r).symm⟩
  obtain ⟨r, hr⟩ := exists_flatten (m := k) (n := l) (l := List.ofFn t) (by simp [hN])
  exact ⟨r, List.ofFn_injective (by rw [← hg, hr])⟩

theorem Coupled.of_mat {k l N : Nat} (hN : N = k * l) {run : List F → Res (α × List F)}
    {run' : List F → Res (α' × List F)} {Rel : α → α' → Prop} {out : (Fin k → Fin l → F) → α}
    {out' : (Fin k → Fin l → F) → α'} (h : ∀ T rest, run ((matOf T).flatten ++ rest) = .ok (out T, rest))
    (h' : ∀ T rest, run' ((matOf T).flatten ++ rest) = .ok (out' T, rest))
    (hφ : ∃ φ : (Fin k → Fin l → F) ≃ (Fin k → Fin l → F), ∀ T, Rel (out T) (out' (φ T))) : Coupled N run run' Rel := by
  obtain ⟨E, hE⟩ := exists_matEquiv (F := F) hN
  obtain ⟨φ, hφ⟩ := hφ
  refine ⟨(E.symm.trans φ).trans E, fun t => ⟨_, _, hφ (E.symm t), fun rest => ⟨?_, ?_⟩⟩⟩
  · rw [← h, ← hE, E.apply_symm_apply]
  · rw [← h', ← hE]; rfl

end couple

/-! ### Coupling the randomness of one phase -/

section core
variable {F A B C : Type} [Field F] [AddCommGroup A] [Module F A] [AddCommGroup B] [Module F B]
  [AddCommGroup C] [Module F C] (f : A →ₗ[F] B →ₗ[F] C) {m n p q : Nat}

/-- Commitments to `x` and to `x'` with the same values. -/
theorem exists_comEquiv {u : Fin p → A} (hu : Indep (F := F) u) {x x' : Fin m → A}
    (hx : ∀ i, x i ∈ Submodule.span F (Set.range u)) (hx' : ∀ i, x' i ∈ Submodule.span F (Set.range u)) :
    ∃ φ : (Fin m → Fin p → F) ≃ (Fin m → Fin p → F), ∀ R,
      (fun i => x i + ∑ k, R i k • u k) = fun i => x' i + ∑ k, φ R i k • u k := by
  have hinj : ∀ x : Fin m → A, Function.Injective fun (R : Fin m → Fin p → F) i => x i + ∑ k, R i k • u k := by
    intro x R R' h
    funext i
    exact hu.inj (add_left_cancel (congrFun h i))
  have hrange : ∀ x : Fin m → A, (∀ i, x i ∈ Submodule.span F (Set.range u)) → ∀ c : Fin m → A,
      (∃ R : Fin m → Fin p → F, (fun i => x i + ∑ k, R i k • u k) = c) ↔
        ∀ i, c i ∈ Submodule.span F (Set.range u) := by
    intro x hx c
    constructor
    · rintro ⟨R, rfl⟩ i
      exact Submodule.add_mem _ (hx i) (Submodule.sum_mem _ fun k _ =>
        Submodule.smul_mem _ _ (Submodule.subset_span ⟨k, rfl⟩))
    · intro hc
      choose R hR using fun i => (Submodule.mem_span_range_iff_exists_fun F).mp (Submodule.sub_mem _ (hc i) (hx i))
      exact ⟨R, funext fun i => by rw [hR]; abel⟩
  exact exists_equiv_of_range (hinj x) (hinj x') fun c => by rw [hrange x hx, hrange x' hx']

/-- If two families of views have the same range, and the commitments determine the first two components of the
randomness, then for fixed commitments the third components correspond. -/
theorem exists_fixEquiv {V W Z T R S R' S' : Type} {g : R × S × T → V × W × Z} {g' : R' × S' × T → V × W × Z}
    (hg : Function.Injective g) (hg' : Function.Injective g')
    {C : R → V} {D : S → W} {C' : R' → V} {D' : S' → W} (hC : ∀ r, (g r).1 = C r.1) (hD : ∀ r, (g r).2.1 = D r.2.1)
    (hC' : ∀ r, (g' r).1 = C' r.1) (hD' : ∀ r, (g' r).2.1 = D' r.2.1)
    (iC : Function.Injective C) (iD : Function.Injective D) (iC' : Function.Injective C') (iD' : Function.Injective D')
    (h : ∀ v, (∃ r, g r = v) ↔ ∃ r, g' r = v) {r : R} {s : S} {r' : R'} {s' : S'} (h1 : C r = C' r') (h2 : D s = D' s') :
    ∃ φ : T ≃ T, ∀ t, g (r, s, t) = g' (r', s', φ t) := by
  have inj : Function.Injective fun t => g (r, s, t) := fun t t' ht => by
    have := hg ht
    simpa using this
  have inj' : Function.Injective fun t => g' (r', s', t) := fun t t' ht => by
    have := hg' ht
    simpa using this
  refine exists_equiv_of_range inj inj' fun v => ⟨?_, ?_⟩
  · rintro ⟨t, rfl⟩
    obtain ⟨⟨r2, s2, t2⟩, h3⟩ := (h _).mp ⟨(r, s, t), rfl⟩
    have e1 := congrArg Prod.fst h3
    have e2 := congrArg (fun x => x.2.1) h3
    simp only [hC', hC, hD, hD'] at e1 e2
    rw [h1] at e1
    rw [h2] at e2
    obtain rfl := iC' e1
    obtain rfl := iD' e2
    exact ⟨t2, h3⟩
  · rintro ⟨t, rfl⟩
    obtain ⟨⟨r2, s2, t2⟩, h3⟩ := (h _).mpr ⟨(r', s', t), rfl⟩
    have e1 := congrArg Prod.fst h3
    have e2 := congrArg (fun x => x.2.1) h3
    simp only [hC', hC, hD, hD'] at e1 e2
    rw [← h1] at e1
    rw [← h2] at e2
    obtain rfl := iC e1
    obtain rfl := iD e2
    exact ⟨t2, h3⟩

theorem mem_span_smul {u0 : A} (r : F) : r • u0 ∈ Submodule.span F (Set.range ![u0]) :=
  Submodule.smul_mem _ _ (Submodule.subset_span ⟨0, rfl⟩)

theorem com_inj {u : Fin p → A} (hu : Indep (F := F) u) (x : Fin m → A) :
    Function.Injective fun (R : Fin m → Fin p → F) i => x i + ∑ k, R i k • u k := fun R R' h => by
  funext i
  exact hu.inj (add_left_cancel (congrFun h i))

/-- Proofs of the same equation for the same commitments with two witnesses. -/
theorem exists_proofEquiv {u : Fin p → A} {v : Fin q → B} (hu : Indep (F := F) u) (hv : Indep (F := F) v)
    (hf : ∀ δ : Fin p → B, ∑ k, f (u k) (δ k) = 0 → δ = 0) {a : Fin n → A} {x x' : Fin m → A} {b : Fin m → B} {y y' : Fin n → B} (γ : Fin m → Fin n → F)
    (ha : ∀ j, a j ∈ Submodule.span F (Set.range u)) (hx : ∀ i, x i ∈ Submodule.span F (Set.range u))
    (hx' : ∀ i, x' i ∈ Submodule.span F (Set.range u))
    (hy : ∀ j, y j ∈ Submodule.span F (Set.range v)) (hy' : ∀ j, y' j ∈ Submodule.span F (Set.range v))
    (h : ((∑ j, f (a j) (y j)) + (∑ i, f (x i) (b i)) + ∑ i, ∑ j, γ i j • f (x i) (y j)) =
      ((∑ j, f (a j) (y' j)) + (∑ i, f (x' i) (b i)) + ∑ i, ∑ j, γ i j • f (x' i) (y' j)))
    {R R' : Fin m → Fin p → F} {S S' : Fin n → Fin q → F}
    (hR : (fun i => x i + ∑ k, R i k • u k) = fun i => x' i + ∑ k, R' i k • u k)
    (hS : (fun j => y j + ∑ l, S j l • v l) = fun j => y' j + ∑ l, S' j l • v l) :
    ∃ φ : (Fin q → Fin p → F) ≃ (Fin q → Fin p → F), ∀ T, piVal b y γ R S T v = piVal b y' γ R' S' (φ T) v ∧
      thetaVal a x γ S T u = thetaVal a x' γ S' (φ T) u := by
  obtain ⟨φ, hφ⟩ := exists_fixEquiv (g := viewFn u v a x b y γ) (g' := viewFn u v a x' b y' γ)
    (viewFn_inj hu hv ..) (viewFn_inj hu hv ..) (fun _ => rfl) (fun _ => rfl) (fun _ => rfl) (fun _ => rfl)
    (com_inj hu x) (com_inj hv y) (com_inj hu x') (com_inj hv y')
    (fun w => by rw [viewFn_range f γ ha hx hy hf, viewFn_range f γ ha hx' hy' hf, h]) hR hS
  refine ⟨φ, fun T => ?_⟩
  have := hφ T
  simp only [viewFn, Prod.mk.injEq] at this
  exact this.2.2

/-- Proof and simulation for the same commitments. -/
theorem exists_simEquiv1 {u : Fin p → A} {v0 : B} (hu : Indep (F := F) u) (hv : Indep (F := F) ![v0])
    (hf : ∀ δ : Fin p → B, ∑ k, f (u k) (δ k) = 0 → δ = 0) {a : Fin n → A} {x : Fin m → A} {β : Fin m → F} {τ : A}
    {y : Fin n → B} (γ : Fin m → Fin n → F)
    (ha : ∀ j, a j ∈ Submodule.span F (Set.range u)) (hx : ∀ i, x i ∈ Submodule.span F (Set.range u))
    (hy : ∀ j, y j ∈ Submodule.span F (Set.range ![v0])) (hτ : τ ∈ Submodule.span F (Set.range u))
    (h : ((∑ j, f (a j) (y j)) + (∑ i, f (x i) (β i • v0)) + ∑ i, ∑ j, γ i j • f (x i) (y j)) = f τ v0)
    {R R' : Fin m → Fin p → F} {S S' : Fin n → Fin 1 → F}
    (hR : (fun i => x i + ∑ k, R i k • u k) = fun i => ∑ k, R' i k • u k)
    (hS : (fun j => y j + ∑ l, S j l • ![v0] l) = fun j => S' j 0 • v0) :
    ∃ φ : (Fin 1 → Fin p → F) ≃ (Fin 1 → Fin p → F), ∀ T,
      piVal (fun i => β i • v0) y γ R S T ![v0] = (fun k => φ T 0 k • v0) ∧
      thetaVal a x γ S T u = fun _ => (∑ j, S' j 0 • a j) + (∑ i, β i • ∑ k, R' i k • u k) +
        (∑ i, ∑ j, γ i j • S' j 0 • ∑ k, R' i k • u k) - τ - ∑ k, φ T 0 k • u k := by
  have i1 : Function.Injective fun (R : Fin m → Fin p → F) i => ∑ k, R i k • u k := fun R R' h => by
    funext i; exact hu.inj (congrFun h i)
  have i2 : Function.Injective fun (S : Fin n → Fin 1 → F) j => S j 0 • v0 := fun S S' h => by
    funext j; exact hv.inj (by simpa using congrFun h j)
  obtain ⟨φ, hφ⟩ := exists_fixEquiv (g := viewFn u ![v0] a x (fun i => β i • v0) y γ) (g' := simFn1 u v0 a β τ γ)
    (viewFn_inj hu hv ..) (simFn1_inj hu hv ..) (fun _ => rfl) (fun _ => rfl) (fun _ => rfl) (fun _ => rfl)
    (com_inj hu x) (com_inj hv y) i1 i2
    (fun w => by rw [viewFn_range f γ ha hx hy hf, simFn1_range f _ γ ha hτ hf, h]) hR hS
  refine ⟨φ, fun T => ?_⟩
  have := hφ T
  simp only [viewFn, simFn1, Prod.mk.injEq] at this
  exact this.2.2

/-- Proof and simulation for the same commitments. -/
theorem exists_simEquiv2 {u0 : A} {v : Fin q → B} (hu : Indep (F := F) ![u0]) (hv : Indep (F := F) v)
    (hf : ∀ δ : Fin 1 → B, ∑ k, f (![u0] k) (δ k) = 0 → δ = 0) {α : Fin n → F} {x : Fin m → A} {b : Fin m → B} {τ : B}
    {y : Fin n → B} (γ : Fin m → Fin n → F) (hx : ∀ i, x i ∈ Submodule.span F (Set.range ![u0]))
    (hy : ∀ j, y j ∈ Submodule.span F (Set.range v))
    (h : ((∑ j, f (α j • u0) (y j)) + (∑ i, f (x i) (b i)) + ∑ i, ∑ j, γ i j • f (x i) (y j)) = f u0 τ)
    {R R' : Fin m → Fin 1 → F} {S S' : Fin n → Fin q → F}
    (hR : (fun i => x i + ∑ k, R i k • ![u0] k) = fun i => R' i 0 • u0)
    (hS : (fun j => y j + ∑ l, S j l • v l) = fun j => ∑ l, S' j l • v l) :
    ∃ φ : (Fin q → Fin 1 → F) ≃ (Fin q → Fin 1 → F), ∀ T,
      piVal b y γ R S T v = (fun _ => (∑ j, α j • ∑ l, S' j l • v l) + (∑ i, R' i 0 • b i) +
        (∑ i, ∑ j, γ i j • R' i 0 • ∑ l, S' j l • v l) - τ - ∑ l, φ T l 0 • v l) ∧
      thetaVal (fun j => α j • u0) x γ S T ![u0] = fun l => φ T l 0 • u0 := by
  have i1 : Function.Injective fun (R : Fin m → Fin 1 → F) i => R i 0 • u0 := fun S S' h => by
    funext j; exact hu.inj (by simpa using congrFun h j)
  have i2 : Function.Injective fun (R : Fin n → Fin q → F) i => ∑ k, R i k • v k := fun R R' h => by
    funext i; exact hv.inj (congrFun h i)
  obtain ⟨φ, hφ⟩ := exists_fixEquiv (g := viewFn ![u0] v (fun j => α j • u0) x b y γ) (g' := simFn2 u0 v α b τ γ)
    (viewFn_inj hu hv ..) (simFn2_inj hu hv ..) (fun _ => rfl) (fun _ => rfl) (fun _ => rfl) (fun _ => rfl)
    (com_inj hu x) (com_inj hv y) i1 i2
    (fun w => by rw [viewFn_range f γ (fun _ => mem_span_smul _) hx hy hf, simFn2_range f _ γ hf, h]) hR hS
  refine ⟨φ, fun T => ?_⟩
  have := hφ T
  simp only [viewFn, simFn2, Prod.mk.injEq] at this
  exact this.2.2

end core
end GS
