import Verif.Spec.Simulator
import Verif.Lemmas.SimKey

/-! Views of the simulators. -/

set_option linter.unusedSectionVars false
set_option linter.unusedVariables false

namespace GS

section core
variable {F A B C : Type} [Field F] [AddCommGroup A] [Module F A] [AddCommGroup B] [Module F B]
  [AddCommGroup C] [Module F C] (f : A →ₗ[F] B →ₗ[F] C) {m n p q : Nat}

/-- Simulation with one key element on the right. -/
def simFn1 (u : Fin p → A) (v0 : B) (a : Fin n → A) (β : Fin m → F) (τ : A) (γ : Fin m → Fin n → F)
    (r : Rands F m n p 1) : (Fin m → A) × (Fin n → B) × (Fin p → B) × (Fin 1 → A) :=
  (fun i => ∑ k, r.1 i k • u k, fun j => r.2.1 j 0 • v0, fun k => r.2.2 0 k • v0,
    fun _ => (∑ j, r.2.1 j 0 • a j) + (∑ i, β i • ∑ k, r.1 i k • u k) +
      (∑ i, ∑ j, γ i j • r.2.1 j 0 • ∑ k, r.1 i k • u k) - τ - ∑ k, r.2.2 0 k • u k)

/-- Simulation with one key element on the left. -/
def simFn2 (u0 : A) (v : Fin q → B) (α : Fin n → F) (b : Fin m → B) (τ : B) (γ : Fin m → Fin n → F)
    (r : Rands F m n 1 q) : (Fin m → A) × (Fin n → B) × (Fin 1 → B) × (Fin q → A) :=
  (fun i => r.1 i 0 • u0, fun j => ∑ l, r.2.1 j l • v l,
    fun _ => (∑ j, α j • ∑ l, r.2.1 j l • v l) + (∑ i, r.1 i 0 • b i) +
      (∑ i, ∑ j, γ i j • r.1 i 0 • ∑ l, r.2.1 j l • v l) - τ - ∑ l, r.2.2 l 0 • v l,
    fun l => r.2.2 l 0 • u0)

theorem simFn1_inj {u : Fin p → A} {v0 : B} (hu : Indep (F := F) u) (hv : Indep (F := F) ![v0]) (a : Fin n → A)
    (β : Fin m → F) (τ : A) (γ : Fin m → Fin n → F) : Function.Injective (simFn1 u v0 a β τ γ) := by
  have hv' : ∀ r r' : F, r • v0 = r' • v0 → r = r' := fun r r' h => by
    have := hv.inj (r := ![r]) (r' := ![r']) (by simpa using h)
    simpa using congrFun this 0
  rintro ⟨R, S, T⟩ ⟨R', S', T'⟩ h
  simp only [simFn1, Prod.mk.injEq] at h
  obtain ⟨h1, h2, h3, -⟩ := h
  have hR : R = R' := by funext i; exact hu.inj (congrFun h1 i)
  have hS : S = S' := by funext j l; fin_cases l; exact hv' _ _ (congrFun h2 j)
  have hT : T = T' := by funext l k; fin_cases l; exact hv' _ _ (congrFun h3 k)
  rw [hR, hS, hT]

theorem simFn2_inj {u0 : A} {v : Fin q → B} (hu : Indep (F := F) ![u0]) (hv : Indep (F := F) v) (α : Fin n → F)
    (b : Fin m → B) (τ : B) (γ : Fin m → Fin n → F) : Function.Injective (simFn2 u0 v α b τ γ) := by
  have hu' : ∀ r r' : F, r • u0 = r' • u0 → r = r' := fun r r' h => by
    have := hu.inj (r := ![r]) (r' := ![r']) (by simpa using h)
    simpa using congrFun this 0
  rintro ⟨R, S, T⟩ ⟨R', S', T'⟩ h
  simp only [simFn2, Prod.mk.injEq] at h
  obtain ⟨h1, h2, -, h3⟩ := h
  have hR : R = R' := by funext i l; fin_cases l; exact hu' _ _ (congrFun h1 i)
  have hS : S = S' := by funext j; exact hv.inj (congrFun h2 j)
  have hT : T = T' := by funext l k; fin_cases k; exact hu' _ _ (congrFun h3 l)
  rw [hR, hS, hT]

theorem mem_span_one {v0 d : B} (h : d ∈ Submodule.span F (Set.range ![v0])) : ∃ r : F, d = r • v0 := by
  obtain ⟨r, hr⟩ := (Submodule.mem_span_range_iff_exists_fun F).mp h
  exact ⟨r 0, by rw [← hr]; simp⟩

theorem simFn1_range {u : Fin p → A} {v0 : B} {a : Fin n → A} (β : Fin m → F) {τ : A} (γ : Fin m → Fin n → F)
    (ha : ∀ j, a j ∈ Submodule.span F (Set.range u)) (hτ : τ ∈ Submodule.span F (Set.range u))
    (hf : ∀ δ : Fin p → B, ∑ k, f (u k) (δ k) = 0 → δ = 0)
    (w : (Fin m → A) × (Fin n → B) × (Fin p → B) × (Fin 1 → A)) :
    (∃ r, simFn1 u v0 a β τ γ r = w) ↔
      (∀ i, w.1 i ∈ Submodule.span F (Set.range u)) ∧ (∀ j, w.2.1 j ∈ Submodule.span F (Set.range ![v0])) ∧
      (∀ l, w.2.2.2 l ∈ Submodule.span F (Set.range u)) ∧
      (∑ j, f (a j) (w.2.1 j)) + (∑ i, f (w.1 i) (β i • v0)) + (∑ i, f (w.1 i) (∑ j, γ i j • w.2.1 j)) =
        f τ v0 + (∑ k, f (u k) (w.2.2.1 k)) + ∑ l, f (w.2.2.2 l) (![v0] l) := by
  have hsum : ∀ (r : Fin p → F), ∑ k, r k • u k ∈ Submodule.span F (Set.range u) := fun r =>
    Submodule.sum_mem _ fun k _ => Submodule.smul_mem _ _ (Submodule.subset_span ⟨k, rfl⟩)
  have hW : ∀ (c : Fin m → A) (S : Fin n → F), (∀ i, c i ∈ Submodule.span F (Set.range u)) →
      (∑ j, S j • a j) + (∑ i, β i • c i) + (∑ i, ∑ j, γ i j • S j • c i) - τ ∈ Submodule.span F (Set.range u) :=
    fun c S hc => Submodule.sub_mem _ (Submodule.add_mem _ (Submodule.add_mem _
      (Submodule.sum_mem _ fun j _ => Submodule.smul_mem _ _ (ha j))
      (Submodule.sum_mem _ fun i _ => Submodule.smul_mem _ _ (hc i)))
      (Submodule.sum_mem _ fun i _ => Submodule.sum_mem _ fun j _ =>
        Submodule.smul_mem _ _ (Submodule.smul_mem _ _ (hc i)))) hτ
  have hL : ∀ (c : Fin m → A) (S : Fin n → F),
      (∑ j, f (a j) (S j • v0)) + (∑ i, f (c i) (β i • v0)) + (∑ i, f (c i) (∑ j, γ i j • S j • v0)) =
      f ((∑ j, S j • a j) + (∑ i, β i • c i) + (∑ i, ∑ j, γ i j • S j • c i)) v0 := by
    intro c S
    simp only [map_add, map_sum, map_smul, LinearMap.add_apply, LinearMap.sum_apply, LinearMap.smul_apply]
  constructor
  · rintro ⟨⟨R, S, T⟩, rfl⟩
    refine ⟨fun i => hsum _, fun j => Submodule.smul_mem _ _ (Submodule.subset_span ⟨0, rfl⟩), fun l => ?_, ?_⟩
    · exact Submodule.sub_mem _ (hW _ _ fun i => hsum _) (hsum _)
    · simp only [simFn1]
      rw [hL, Fin.sum_univ_one, Matrix.cons_val_zero]
      simp only [map_sub, map_sum, map_smul, LinearMap.sub_apply, LinearMap.sum_apply, LinearMap.smul_apply]
      abel
  · obtain ⟨c, d, π, θ⟩ := w
    rintro ⟨hc, hd, hθ, h⟩
    simp only at hc hd hθ h
    choose R hR using fun i => (Submodule.mem_span_range_iff_exists_fun F).mp (hc i)
    choose S hS using fun j => mem_span_one (hd j)
    obtain ⟨T, hT⟩ := (Submodule.mem_span_range_iff_exists_fun F).mp
      (Submodule.sub_mem _ (hW c S hc) (hθ 0))
    obtain rfl : d = fun j => S j • v0 := funext hS
    rw [hL, Fin.sum_univ_one, Matrix.cons_val_zero] at h
    have h0 : ∑ k, f (u k) ((fun k => T k • v0 - π k) k) = 0 := by
      have : ∑ k, f (u k) (T k • v0) = f (∑ k, T k • u k) v0 := by
        simp only [map_sum, map_smul, LinearMap.sum_apply, LinearMap.smul_apply]
      simp only [map_sub, Finset.sum_sub_distrib]
      rw [this, hT, map_sub, map_sub, LinearMap.sub_apply, LinearMap.sub_apply, h]
      abel
    have hπ := hf _ h0
    refine ⟨(R, fun j _ => S j, fun _ k => T k), ?_⟩
    simp only [simFn1, hR, hT, Prod.mk.injEq, true_and]
    refine ⟨funext fun k => sub_eq_zero.mp (congrFun hπ k), funext fun l => ?_⟩
    rw [Subsingleton.elim l 0]
    abel

theorem simFn2_range {u0 : A} {v : Fin q → B} (α : Fin n → F) {b : Fin m → B} {τ : B} (γ : Fin m → Fin n → F)
    (hf : ∀ δ : Fin 1 → B, ∑ k, f (![u0] k) (δ k) = 0 → δ = 0)
    (w : (Fin m → A) × (Fin n → B) × (Fin 1 → B) × (Fin q → A)) :
    (∃ r, simFn2 u0 v α b τ γ r = w) ↔
      (∀ i, w.1 i ∈ Submodule.span F (Set.range ![u0])) ∧ (∀ j, w.2.1 j ∈ Submodule.span F (Set.range v)) ∧
      (∀ l, w.2.2.2 l ∈ Submodule.span F (Set.range ![u0])) ∧
      (∑ j, f (α j • u0) (w.2.1 j)) + (∑ i, f (w.1 i) (b i)) + (∑ i, f (w.1 i) (∑ j, γ i j • w.2.1 j)) =
        f u0 τ + (∑ k, f (![u0] k) (w.2.2.1 k)) + ∑ l, f (w.2.2.2 l) (v l) := by
  have hsum : ∀ (r : Fin q → F), ∑ k, r k • v k ∈ Submodule.span F (Set.range v) := fun r =>
    Submodule.sum_mem _ fun k _ => Submodule.smul_mem _ _ (Submodule.subset_span ⟨k, rfl⟩)
  have hL : ∀ (R : Fin m → F) (d : Fin n → B),
      (∑ j, f (α j • u0) (d j)) + (∑ i, f (R i • u0) (b i)) + (∑ i, f (R i • u0) (∑ j, γ i j • d j)) =
      f u0 ((∑ j, α j • d j) + (∑ i, R i • b i) + (∑ i, ∑ j, γ i j • R i • d j)) := by
    intro R d
    simp only [map_add, map_sum, map_smul, LinearMap.smul_apply]
  constructor
  · rintro ⟨⟨R, S, T⟩, rfl⟩
    refine ⟨fun j => Submodule.smul_mem _ _ (Submodule.subset_span ⟨0, rfl⟩), fun i => hsum _,
      fun j => Submodule.smul_mem _ _ (Submodule.subset_span ⟨0, rfl⟩), ?_⟩
    simp only [simFn2]
    rw [hL, Fin.sum_univ_one, Matrix.cons_val_zero]
    simp only [map_sub, map_sum, map_smul, LinearMap.smul_apply]
    abel
  · obtain ⟨c, d, π, θ⟩ := w
    rintro ⟨hc, hd, hθ, h⟩
    simp only at hc hd hθ h
    choose R hR using fun i => mem_span_one (hc i)
    choose S hS using fun j => (Submodule.mem_span_range_iff_exists_fun F).mp (hd j)
    choose T hT using fun l => mem_span_one (hθ l)
    obtain rfl : c = fun i => R i • u0 := funext hR
    obtain rfl : θ = fun i => T i • u0 := funext hT
    rw [hL, Fin.sum_univ_one, Matrix.cons_val_zero] at h
    have h0 : ∑ k, f (![u0] k) ((fun k => (∑ j, α j • d j) + (∑ i, R i • b i) +
        (∑ i, ∑ j, γ i j • R i • d j) - τ - (∑ l, T l • v l) - π k) k) = 0 := by
      rw [Fin.sum_univ_one, Matrix.cons_val_zero, map_sub, map_sub, map_sub, h]
      simp only [map_sum, map_smul, LinearMap.smul_apply]
      abel
    have hπ := hf _ h0
    refine ⟨(fun i _ => R i, S, fun l _ => T l), ?_⟩
    simp only [simFn2, hS, Prod.mk.injEq, true_and, and_true]
    refine funext fun k => sub_eq_zero.mp (congrFun hπ k)

end core

/-! ### The programs -/

section programs
variable {F G1 G2 GT : Type} [Field F] [AddCommGroup G1] [Module F G1]
  [AddCommGroup G2] [Module F G2] [AddCommGroup GT] [Module F GT] {crs : CRS G1 G2 GT} {m n : Nat}

theorem replicate_ofFn {α : Type} (m : Nat) (a : α) : List.replicate m a = List.ofFn fun _ : Fin m => a := by
  simp

theorem flat_draws3 {p q N : Nat} (hN : N = q * p) (r : Rands F m n p q) : ∃ s1 s2 : List F,
    draws (F := F) G1 G2 (m * p) (flat r) = ((matOf r.1).flatten, s1) ∧
    draws (F := F) G1 G2 (n * q) s1 = ((matOf r.2.1).flatten, s2) ∧
    draws (F := F) G1 G2 N s2 = ((matOf r.2.2).flatten, []) := by
  have h := draws_tape' (F := F) (G1 := G1) (G2 := G2) (l := flat r) (n := m * p + n * q + N)
    (by rw [flat_length, hN]) []
  rw [List.append_nil] at h
  obtain ⟨s2, h12, h3⟩ := draws_split (by simp only [List.length_append, flatten_matOf_length]) h
  obtain ⟨s1, h1, h2⟩ := draws_split (by simp only [flatten_matOf_length]) h12
  exact ⟨s1, s2, h1, h2, h3⟩

theorem groupCom_zero {G : Type} [AddCommGroup G] [Module F G] (u0 u1 : Com G) (R : Fin m → Fin 2 → F) :
    (List.ofFn fun i => groupCom u0 u1 (0 : G) (R i 0, R i 1)) = List.ofFn fun i => ∑ k, R i k • ![u0, u1] k := by
  rw [groupCom_sum]
  apply List.ofFn_inj.mpr
  funext i
  exact zero_add _

theorem scalarCom_zero {G : Type} [AddCommGroup G] [Module F G] (u0 u1 : Com G) (g : G) (R : Fin m → Fin 1 → F) :
    (List.ofFn fun i => scalarCom u0 u1 g (0 : F) (R i 0)) = List.ofFn fun i => R i 0 • u0 := by
  apply List.ofFn_inj.mpr
  funext i
  simp [scalarCom]

section proofs
variable {ρ : Type} [Rng ρ F G1 G2] {rng rng' : ρ} {xc : Commit F G1} {yc : Commit F G2}

theorem MSMEG1.simulateProof_draws {self : MSMEG1 F G1} {a : Fin n → G1} {b : Fin m → F}
    {γ : Fin m → Fin n → F} (ha : self.a_consts = List.ofFn a) (hb : self.b_consts = List.ofFn b)
    (hγ : self.gamma = matOf γ) {u0 u1 : Com G1} {v0 v1 : Com G2} (t2 : F)
    (hu : crs.u = [u0, u1]) (hv : crs.v = [v0, v1]) {c : Fin m → Com G1} (hc : xc.coms = List.ofFn c)
    {S : Fin n → Fin 1 → F} (hS : yc.rand = matOf S) {T : Fin 1 → Fin 2 → F}
    (hd : draws (F := F) G1 G2 2 rng = ((matOf T).flatten, rng')) :
    self.simulateProof t2 xc yc crs rng = .ok (⟨List.ofFn fun k => T 0 k • v0,
      List.ofFn fun _ : Fin 1 => (∑ j, S j 0 • i1 (F := F) (a j)) + (∑ i, (b i * t2) • c i) +
        (∑ i, ∑ j, γ i j • S j 0 • c i) - t2 • i1 (F := F) self.target - ∑ k, T 0 k • ![u0, u1] k,
      .MultiScalarG1, []⟩, rng') := by
  have hT : (matOf T).flatten = [T 0 0, T 0 1] := by simp [matOf, List.ofFn_succ]
  simp only [draws, hT, Prod.mk.injEq, List.cons.injEq, and_true] at hd
  have hu0 : idx crs.u 0 = .ok u0 := by rw [hu]; rfl
  have hu1 : idx crs.u 1 = .ok u1 := by rw [hu]; rfl
  have hv0 : idx crs.v 0 = .ok v0 := by rw [hv]; rfl
  unfold MSMEG1.simulateProof
  dsimp only
  rw [hu0, hu1, hv0, ok_bind, ok_bind, ok_bind, hd.1.1, hd.1.2, hd.2, pure_eq_ok]
  simp only [ha, hb, hγ, hc, hS, matOf_col_flatten, List.map_ofFn, Function.comp_def, equLhs_ofFn, Fin.sum_univ_two,
    Matrix.cons_val_zero, Matrix.cons_val_one, List.ofFn_succ, List.ofFn_zero]
  rfl

theorem MSMEG2.simulateProof_draws {self : MSMEG2 F G2} {a : Fin n → F} {b : Fin m → G2}
    {γ : Fin m → Fin n → F} (ha : self.a_consts = List.ofFn a) (hb : self.b_consts = List.ofFn b)
    (hγ : self.gamma = matOf γ) {u0 u1 : Com G1} {v0 v1 : Com G2} (t1 : F)
    (hu : crs.u = [u0, u1]) (hv : crs.v = [v0, v1]) {R : Fin m → Fin 1 → F} (hR : xc.rand = matOf R)
    {d : Fin n → Com G2} (hc : yc.coms = List.ofFn d) {T : Fin 2 → Fin 1 → F}
    (hd : draws (F := F) G1 G2 2 rng = ((matOf T).flatten, rng')) :
    self.simulateProof t1 xc yc crs rng = .ok (⟨List.ofFn fun _ : Fin 1 =>
        (∑ j, (a j * t1) • d j) + (∑ i, R i 0 • i2 (F := F) (b i)) + (∑ i, ∑ j, γ i j • R i 0 • d j) -
          t1 • i2 (F := F) self.target - ∑ l, T l 0 • ![v0, v1] l,
      List.ofFn fun l => T l 0 • u0, .MultiScalarG2, []⟩, rng') := by
  have hT : (matOf T).flatten = [T 0 0, T 1 0] := by simp [matOf, List.ofFn_succ]
  simp only [draws, hT, Prod.mk.injEq, List.cons.injEq, and_true] at hd
  have hu0 : idx crs.u 0 = .ok u0 := by rw [hu]; rfl
  have hv0 : idx crs.v 0 = .ok v0 := by rw [hv]; rfl
  have hv1 : idx crs.v 1 = .ok v1 := by rw [hv]; rfl
  unfold MSMEG2.simulateProof
  dsimp only
  rw [hu0, hv0, hv1, ok_bind, ok_bind, ok_bind, hd.1.1, hd.1.2, hd.2, pure_eq_ok]
  simp only [ha, hb, hγ, hc, hR, matOf_col_flatten, List.map_ofFn, Function.comp_def, equLhs_ofFn, Fin.sum_univ_two,
    Matrix.cons_val_zero, Matrix.cons_val_one, List.ofFn_succ, List.ofFn_zero]
  rfl

theorem QuadEqu.simulateProof_draws {self : QuadEqu F} {a : Fin n → F} {b : Fin m → F}
    {γ : Fin m → Fin n → F} (ha : self.a_consts = List.ofFn a) (hb : self.b_consts = List.ofFn b)
    (hγ : self.gamma = matOf γ) {u0 u1 : Com G1} {v0 v1 : Com G2} (t1 t2 : F)
    (hu : crs.u = [u0, u1]) (hv : crs.v = [v0, v1]) {c : Fin m → Com G1} (hc : xc.coms = List.ofFn c)
    {S : Fin n → Fin 1 → F} (hS : yc.rand = matOf S) {T : Fin 1 → Fin 1 → F}
    (hd : draws (F := F) G1 G2 1 rng = ((matOf T).flatten, rng')) :
    self.simulateProof t1 t2 xc yc crs rng = .ok (⟨List.ofFn fun k => T 0 k • v0,
      List.ofFn fun _ : Fin 1 => (∑ j, S j 0 • a j • t1 • u0) + (∑ i, (b i * t2) • c i) +
        (∑ i, ∑ j, γ i j • S j 0 • c i) - t2 • self.target • t1 • u0 - ∑ k, T 0 k • ![u0] k,
      .Quadratic, []⟩, rng') := by
  have hT : (matOf T).flatten = [T 0 0] := by simp [matOf, List.ofFn_succ]
  simp only [draws, hT, Prod.mk.injEq, List.cons.injEq, and_true] at hd
  have hu0 : idx crs.u 0 = .ok u0 := by rw [hu]; rfl
  have hv0 : idx crs.v 0 = .ok v0 := by rw [hv]; rfl
  unfold QuadEqu.simulateProof
  dsimp only
  rw [hu0, hv0, ok_bind, ok_bind, hd.1, hd.2, pure_eq_ok]
  simp only [ha, hb, hγ, hc, hS, matOf_col_flatten, List.map_ofFn, Function.comp_def, equLhs_ofFn, Fin.sum_univ_one,
    Matrix.cons_val_zero, List.ofFn_succ, List.ofFn_zero]

end proofs

theorem MSMEG1.simulate_view {self : MSMEG1 F G1} (hm : 0 < m) (hn : 0 < n) {a : Fin n → G1} {b : Fin m → F}
    {γ : Fin m → Fin n → F} (ha : self.a_consts = List.ofFn a) (hb : self.b_consts = List.ofFn b)
    (hγ : self.gamma = matOf γ) {u0 u1 : Com G1} {v0 v1 : Com G2} (t2 : F)
    (hu : crs.u = [u0, u1]) (hv : crs.v = [v0, v1]) (t : Fin (2 * m + n + 2) → F)
    (r : Rands F m n 2 1) (ht : List.ofFn t = flat r) :
    viewOn (fun rng => self.simulate m n t2 crs rng) t =
      .ok (pub .MultiScalarG1 (simFn1 ![u0, u1] v0 (fun j => i1 (F := F) (a j)) (fun i => b i * t2)
        (t2 • i1 (F := F) self.target) γ r)) := by
  obtain ⟨s1, s2, h1, h2, h3⟩ := flat_draws3 (G1 := G1) (G2 := G2) (N := 2) (by omega) r
  rw [Nat.mul_comm] at h1
  rw [Nat.mul_one] at h2
  rw [viewOn, ht, MSMEG1.simulate, replicate_ofFn, replicate_ofFn, batchCommitG1_draws hm _ hu h1, ok_bind]
  dsimp only
  rw [batchCommitB2_draws hn _ hv h2, ok_bind]
  dsimp only
  rw [MSMEG1.simulateProof_draws ha hb hγ t2 hu hv (groupCom_zero u0 u1 _) rfl h3]
  simp only [ok_bind, pure_eq_ok, Except.map, CProof.publicPart, pub, groupCom_zero, scalarCom_zero, simFn1, List.map_cons, List.map_nil]

theorem MSMEG2.simulate_view {self : MSMEG2 F G2} (hm : 0 < m) (hn : 0 < n) {a : Fin n → F} {b : Fin m → G2}
    {γ : Fin m → Fin n → F} (ha : self.a_consts = List.ofFn a) (hb : self.b_consts = List.ofFn b)
    (hγ : self.gamma = matOf γ) {u0 u1 : Com G1} {v0 v1 : Com G2} (t1 : F)
    (hu : crs.u = [u0, u1]) (hv : crs.v = [v0, v1]) (t : Fin (m + 2 * n + 2) → F)
    (r : Rands F m n 1 2) (ht : List.ofFn t = flat r) :
    viewOn (fun rng => self.simulate m n t1 crs rng) t =
      .ok (pub .MultiScalarG2 (simFn2 u0 ![v0, v1] (fun i => a i * t1) (fun j => i2 (F := F) (b j))
        (t1 • i2 (F := F) self.target) γ r)) := by
  obtain ⟨s1, s2, h1, h2, h3⟩ := flat_draws3 (G1 := G1) (G2 := G2) (N := 2) (by omega) r
  rw [Nat.mul_comm] at h2
  rw [Nat.mul_one] at h1
  rw [viewOn, ht, MSMEG2.simulate, replicate_ofFn, replicate_ofFn, batchCommitB1_draws hm _ hu h1, ok_bind]
  dsimp only
  rw [batchCommitG2_draws hn _ hv h2, ok_bind]
  dsimp only
  rw [MSMEG2.simulateProof_draws ha hb hγ t1 hu hv rfl (groupCom_zero v0 v1 _) h3]
  simp only [ok_bind, pure_eq_ok, Except.map, CProof.publicPart, pub, groupCom_zero, scalarCom_zero, simFn2, List.map_cons, List.map_nil]

theorem QuadEqu.simulate_view {self : QuadEqu F} (hm : 0 < m) (hn : 0 < n) {a : Fin n → F} {b : Fin m → F}
    {γ : Fin m → Fin n → F} (ha : self.a_consts = List.ofFn a) (hb : self.b_consts = List.ofFn b)
    (hγ : self.gamma = matOf γ) {u0 u1 : Com G1} {v0 v1 : Com G2} (t1 t2 : F)
    (hu : crs.u = [u0, u1]) (hv : crs.v = [v0, v1]) (t : Fin (m + n + 1) → F)
    (r : Rands F m n 1 1) (ht : List.ofFn t = flat r) :
    viewOn (fun rng => self.simulate m n t1 t2 crs rng) t =
      .ok (pub .Quadratic (simFn1 ![u0] v0 (fun j => a j • t1 • u0) (fun i => b i * t2)
        (t2 • self.target • t1 • u0) γ r)) := by
  obtain ⟨s1, s2, h1, h2, h3⟩ := flat_draws3 (G1 := G1) (G2 := G2) (N := 1) (by omega) r
  rw [Nat.mul_one] at h1 h2
  rw [viewOn, ht, QuadEqu.simulate, replicate_ofFn, replicate_ofFn, batchCommitB1_draws hm _ hu h1, ok_bind]
  dsimp only
  rw [batchCommitB2_draws hn _ hv h2, ok_bind]
  dsimp only
  rw [QuadEqu.simulateProof_draws ha hb hγ t1 t2 hu hv (scalarCom_zero u0 u1 _ _) rfl h3]
  simp only [ok_bind, pure_eq_ok, Except.map, CProof.publicPart, pub, scalarCom_zero, simFn1, List.map_cons, List.map_nil,
    Fin.sum_univ_one, Matrix.cons_val_zero]

end programs
end GS
