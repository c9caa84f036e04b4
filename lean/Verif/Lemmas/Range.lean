import Verif.Lemmas.SimKey

/-! The part of `θ` outside the span of the key vanishes. -/

set_option linter.unusedSectionVars false

namespace GS
variable {F G1 G2 GT : Type} [Field F] [AddCommGroup G1] [Module F G1]
  [AddCommGroup G2] [Module F G2] [AddCommGroup GT] [Module F GT] {e : G1 →ₗ[F] G2 →ₗ[F] GT}

theorem PrimeGroups.flip (he : PrimeGroups e) : PrimeGroups e.flip where
  cyclic1 := he.cyclic2
  cyclic2 := he.cyclic1
  nondeg x y h := (he.nondeg y x h).symm

theorem pairL_flip (c : Com G1) (d : Com G2) :
    ComT.pairL e.flip d c = ⟨e c.c0 d.c0, e c.c1 d.c0, e c.c0 d.c1, e c.c1 d.c1⟩ := rfl

/-- Exchanging the two middle coordinates. -/
def ComT.swap : ComT GT →ₗ[F] ComT GT where
  toFun t := ⟨t.t0, t.t2, t.t1, t.t3⟩
  map_add' x y := by ext <;> simp
  map_smul' r x := by ext <;> simp

theorem swap_pairL (c : Com G1) (d : Com G2) : ComT.swap (F := F) (ComT.pairL e c d) = ComT.pairL e.flip d c := rfl

variable {g : G2} {a t : F} {v0 v1 : Com G2}

theorem HidingKey.copair1 (he : PrimeGroups e) (h : HidingKey g a t v0 v1) (δ : Fin 1 → Com G1)
    (hδ : ∑ k, ComT.pairL e (δ k) (![v0] k) = 0) : δ = 0 := by
  refine h.pair1 he.flip δ ?_
  have := congrArg (ComT.swap (F := F)) hδ
  simpa only [map_sum, swap_pairL, map_zero] using this

theorem HidingKey.copair2 (he : PrimeGroups e) (h : HidingKey g a t v0 v1) (δ : Fin 2 → Com G1)
    (hδ : ∑ k, ComT.pairL e (δ k) (![v0, v1] k) = 0) : δ = 0 := by
  refine h.pair2 he.flip δ ?_
  have := congrArg (ComT.swap (F := F)) hδ
  simpa only [map_sum, swap_pairL, map_zero] using this

variable {g1 : G1} {u0 u1 : Com G1}

/-- `c ↦ (0, c1 - a c0)`; its kernel is spanned by `u0`. -/
def resid (a : F) : Com G1 →ₗ[F] Com G1 where
  toFun c := ⟨0, c.c1 - a • c.c0⟩
  map_add' x y := by
    ext
    · simp
    · simp only [Com.add_c1, Com.add_c0]; module
  map_smul' r x := by
    ext
    · simp
    · simp only [Com.smul_c1, Com.smul_c0, RingHom.id_apply]; module

/-- The corresponding map on `GT^4`. -/
def residT (a : F) : ComT GT →ₗ[F] ComT GT where
  toFun t := ⟨0, 0, t.t2 - a • t.t0, t.t3 - a • t.t1⟩
  map_add' x y := by
    ext
    · simp
    · simp
    · simp only [ComT.add_t2, ComT.add_t0]; module
    · simp only [ComT.add_t3, ComT.add_t1]; module
  map_smul' r x := by
    ext
    · simp
    · simp
    · simp only [ComT.smul_t2, ComT.smul_t0, RingHom.id_apply]; module
    · simp only [ComT.smul_t3, ComT.smul_t1, RingHom.id_apply]; module

theorem residT_pairL (a : F) (c : Com G1) (d : Com G2) :
    residT a (ComT.pairL e c d) = ComT.pairL e (resid a c) d := by
  ext
  · change 0 = e 0 _; simp
  · change 0 = e 0 _; simp
  · change e c.c1 d.c0 - a • e c.c0 d.c0 = e (c.c1 - a • c.c0) d.c0; simp
  · change e c.c1 d.c1 - a • e c.c0 d.c1 = e (c.c1 - a • c.c0) d.c1; simp

theorem HidingKey.resid_u0 (h : HidingKey g1 a t u0 u1) (c : Com G1) (hc : c ∈ Submodule.span F (Set.range ![u0])) :
    resid a c = 0 := by
  obtain ⟨r, hr⟩ := (Submodule.mem_span_range_iff_exists_fun F).mp hc
  simp only [Fin.sum_univ_one, Matrix.cons_val_zero] at hr
  rw [← hr, map_smul, h.h0]
  ext
  · simp [resid]
  · simp [resid]

theorem HidingKey.span_of_resid (h : HidingKey g1 a t u0 u1) (c : Com G1) (hc : resid a c = 0) :
    c ∈ Submodule.span F (Set.range ![u0]) := by
  obtain ⟨k, hk⟩ := h.cyc c.c0
  have : c.c1 - a • c.c0 = 0 := congrArg Com.c1 hc
  have h1 : c = k • u0 := by
    rw [h.h0]
    ext
    · exact hk
    · rw [sub_eq_zero.mp this, hk]
      simp [smul_smul, mul_comm]
  rw [h1]
  exact mem_span1 _ _

/-- If the left commitments and constants lie in the span of `u0`, so does `θ` in an accepted proof. -/
theorem HidingKey.theta_span {m n q : Nat} (h : HidingKey g1 a t u0 u1) {v : Fin q → Com G2}
    (hv : ∀ δ : Fin q → Com G1, ∑ k, ComT.pairL e (δ k) (v k) = 0 → δ = 0)
    {A : Fin n → Com G1} (hA : ∀ j, A j ∈ Submodule.span F (Set.range ![u0])) {b : Fin m → Com G2}
    {γ : Fin m → Fin n → F} {τ : ComT GT} (hτ : ∃ c d, c ∈ Submodule.span F (Set.range ![u0]) ∧ τ = ComT.pairL e c d)
    {c : Fin m → Com G1} {d : Fin n → Com G2} {π : Fin 1 → Com G2} {θ : Fin q → Com G1}
    (hc : ∀ i, c i ∈ Submodule.span F (Set.range ![u0]))
    (heq : (∑ j, ComT.pairL e (A j) (d j)) + (∑ i, ComT.pairL e (c i) (b i)) +
      (∑ i, ComT.pairL e (c i) (∑ j, γ i j • d j)) =
      τ + (∑ k, ComT.pairL e (![u0] k) (π k)) + ∑ l, ComT.pairL e (θ l) (v l)) (l : Fin q) :
    θ l ∈ Submodule.span F (Set.range ![u0]) := by
  obtain ⟨cτ, dτ, hcτ, rfl⟩ := hτ
  have h0 := congrArg (residT a) heq
  have hu0 : u0 ∈ Submodule.span F (Set.range ![u0]) := Submodule.subset_span ⟨0, rfl⟩
  simp only [map_add, map_sum _ (fun j => ComT.pairL e (A j) (d j)), map_sum _ (fun i => ComT.pairL e (c i) (b i)),
    map_sum _ (fun i => ComT.pairL e (c i) (∑ j, γ i j • d j)), map_sum _ (fun l => ComT.pairL e (θ l) (v l)),
    residT_pairL, h.resid_u0 _ (hA _), h.resid_u0 _ (hc _), h.resid_u0 _ hcτ, map_zero, LinearMap.zero_apply,
    Finset.sum_const_zero, Fin.sum_univ_one, Matrix.cons_val_zero, h.resid_u0 _ hu0, zero_add, add_zero] at h0
  exact h.span_of_resid _ (congrFun (hv _ h0.symm) l)

end GS
