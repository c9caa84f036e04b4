import Verif.Lemmas.WI
import Verif.Lemmas.Range
import Verif.Lemmas.Sound

/-! The proofs published on a binding key, among the accepted ones. -/

set_option linter.unusedSectionVars false
set_option linter.unusedVariables false

namespace GS
variable {F G1 G2 GT : Type} [Field F] [AddCommGroup G1] [Module F G1]
  [AddCommGroup G2] [Module F G2] [AddCommGroup GT] [Module F GT] {e : G1 →ₗ[F] G2 →ₗ[F] GT}

/-- What `proj a` maps to zero are the multiples of `(g, a g)`. -/
theorem proj_eq_zero {G : Type} [AddCommGroup G] [Module F G] {a : F} {g : G} (hg : ∀ x : G, ∃ k : F, x = k • g)
    {c : Com G} (h : proj a c = 0) : ∃ k : F, c = k • (⟨g, a • g⟩ : Com G) := by
  obtain ⟨k, hk⟩ := hg c.c0
  rw [proj_apply, sub_eq_zero] at h
  refine ⟨k, ?_⟩
  ext
  · exact hk
  · rw [h, hk]; simp [smul_smul, mul_comm]

theorem proj_smul_key {G : Type} [AddCommGroup G] [Module F G] (a k : F) (g : G) :
    proj a (k • (⟨g, a • g⟩ : Com G)) = 0 := by
  rw [map_smul, proj_key0, smul_zero]

/-- The trivial proofs of `0 = 0`. -/
theorem pairL_key_zero (he : PrimeGroups e) {g1 : G1} {g2 : G2} (hg1 : g1 ≠ 0) (hg2 : g2 ≠ 0)
    (c1 : ∀ x : G1, ∃ k : F, x = k • g1) (c2 : ∀ x : G2, ∃ k : F, x = k • g2) {a1 a2 : F} {P : Com G2} {Q : Com G1}
    (h : ComT.pairL e ⟨g1, a1 • g1⟩ P + ComT.pairL e Q ⟨g2, a2 • g2⟩ = 0) :
    ∃ s : F, P = s • (⟨g2, a2 • g2⟩ : Com G2) ∧ Q = -s • (⟨g1, a1 • g1⟩ : Com G1) := by
  have h0 : e g1 P.c0 + e Q.c0 g2 = 0 := congrArg ComT.t0 h
  have h1 : e g1 P.c1 + e Q.c0 (a2 • g2) = 0 := congrArg ComT.t1 h
  have h2 : e (a1 • g1) P.c0 + e Q.c1 g2 = 0 := congrArg ComT.t2 h
  have hP : proj a2 P = 0 := by
    have : e g1 (proj a2 P) = 0 := by
      rw [proj_apply, map_sub, map_smul, eq_neg_of_add_eq_zero_left h1, eq_neg_of_add_eq_zero_left h0]
      simp
    exact (he.nondeg _ _ this).resolve_left hg1
  have hQ : proj a1 Q = 0 := by
    have : e (proj a1 Q) g2 = 0 := by
      rw [proj_apply, map_sub, LinearMap.sub_apply, map_smul, LinearMap.smul_apply, eq_neg_of_add_eq_zero_right h2,
        eq_neg_of_add_eq_zero_right h0]
      simp
    exact (he.nondeg _ _ this).resolve_right hg2
  obtain ⟨s, rfl⟩ := proj_eq_zero c2 hP
  obtain ⟨r, rfl⟩ := proj_eq_zero c1 hQ
  refine ⟨s, rfl, ?_⟩
  have h3 : e ((s + r) • g1) g2 = 0 := by
    rw [add_smul, map_add, LinearMap.add_apply]
    simpa using h0
  have h4 := (he.nondeg _ _ h3).resolve_right hg2
  have h5 : s + r = 0 := (smul_eq_zero.mp h4).resolve_right hg1
  rw [eq_neg_of_add_eq_zero_right h5]

theorem cancel_terms {A : Type} [AddCommGroup A] {t p1 p2 q1 q2 : A} (h : t + p1 + p2 = t + q1 + q2) :
    p1 - q1 + (p2 - q2) = 0 := by
  rw [add_assoc, add_assoc, add_right_inj] at h
  rw [sub_add_sub_comm, h, sub_self]

section range
variable {m n P Q : Nat}

/-- In a group generated by one element, the combinations of a family are everything unless the family is zero. -/
theorem combination {G : Type} [AddCommGroup G] [Module F G] {g : G} (hg : ∀ x : G, ∃ k : F, x = k • g)
    (W : Fin m → G) (z : G) (h : (∀ i, W i = 0) → z = 0) : ∃ δ : Fin m → F, z = ∑ i, δ i • W i := by
  by_cases hW : ∀ i, W i = 0
  · exact ⟨0, by simp [h hW]⟩
  · push Not at hW
    obtain ⟨i, hi⟩ := hW
    obtain ⟨k, hk⟩ := hg (W i)
    obtain ⟨c, rfl⟩ := hg z
    have hk0 : k ≠ 0 := by
      rintro rfl
      exact hi (by rw [hk, zero_smul])
    refine ⟨Pi.single i (c * k⁻¹), ?_⟩
    rw [Finset.sum_eq_single i (fun j _ hj => by rw [Pi.single_eq_of_ne hj, zero_smul]) (by simp), Pi.single_eq_same, hk,
      smul_smul, mul_assoc, inv_mul_cancel₀ hk0, mul_one]

/-- Published proofs extract to combinations of the weights. -/
theorem bind_published {p q : Nat} {a1 a2 : F} {u : Fin p → Com G1} {v : Fin q → Com G2}
    (hpu : ∀ k, proj a1 (u k) = 0) (hpv : ∀ k, proj a2 (v k) = 0)
    (A : Fin n → Com G1) (X : Fin m → Com G1) (B : Fin m → Com G2) (Y : Fin n → Com G2) (γ : Fin m → Fin n → F)
    (r : Rands F m n p q) :
    (∀ i, proj a1 ((viewFn u v A X B Y γ r).1 i) = proj a1 (X i)) ∧
      (∀ j, proj a2 ((viewFn u v A X B Y γ r).2.1 j) = proj a2 (Y j)) ∧
      (∀ k, proj a2 ((viewFn u v A X B Y γ r).2.2.1 k) =
        ∑ i, r.1 i k • (proj a2 (B i) + ∑ j, γ i j • proj a2 (Y j))) ∧
      ∀ l, proj a1 ((viewFn u v A X B Y γ r).2.2.2 l) =
        ∑ j, r.2.1 j l • (proj a1 (A j) + ∑ i, γ i j • proj a1 (X i)) := by
  refine ⟨fun i => ?_, fun j => ?_, fun k => ?_, fun l => ?_⟩
  · simp [viewFn, hpu]
  · simp [viewFn, hpv]
  · simp [viewFn, piVal_eq, hpv]
  · simp [viewFn, thetaVal_eq, hpu]

/-- Accepted proofs whose elements after the first extract to combinations of the weights are published. -/
theorem bind_range (he : PrimeGroups e) {g1 : G1} {g2 : G2} (hg1 : g1 ≠ 0) (hg2 : g2 ≠ 0)
    (c1 : ∀ x : G1, ∃ k : F, x = k • g1) (c2 : ∀ x : G2, ∃ k : F, x = k • g2) {a1 a2 : F}
    {u : Fin (P + 1) → Com G1} {v : Fin (Q + 1) → Com G2} {τ : Fin P → F} {σ : Fin Q → F}
    (hu0 : u 0 = ⟨g1, a1 • g1⟩) (hv0 : v 0 = ⟨g2, a2 • g2⟩) (hu : ∀ k, u k.succ = τ k • u 0)
    (hv : ∀ l, v l.succ = σ l • v 0) (hpu : ∀ k, proj a1 (u k) = 0) (hpv : ∀ k, proj a2 (v k) = 0)
    {A : Fin n → Com G1} {X : Fin m → Com G1} {B : Fin m → Com G2} {Y : Fin n → Com G2} {γ : Fin m → Fin n → F}
    (w : (Fin m → Com G1) × (Fin n → Com G2) × (Fin (P + 1) → Com G2) × (Fin (Q + 1) → Com G1))
    (heq : (∑ j, ComT.pairL e (A j) (w.2.1 j)) + (∑ i, ComT.pairL e (w.1 i) (B i)) +
        (∑ i, ComT.pairL e (w.1 i) (∑ j, γ i j • w.2.1 j)) =
      ((∑ j, ComT.pairL e (A j) (Y j)) + (∑ i, ComT.pairL e (X i) (B i)) +
        ∑ i, ∑ j, γ i j • ComT.pairL e (X i) (Y j)) +
        (∑ k, ComT.pairL e (u k) (w.2.2.1 k)) + ∑ l, ComT.pairL e (w.2.2.2 l) (v l))
    (hc : ∀ i, proj a1 (w.1 i) = proj a1 (X i)) (hd : ∀ j, proj a2 (w.2.1 j) = proj a2 (Y j))
    (hπ : ∀ k : Fin P, ∃ δ : Fin m → F,
        proj a2 (w.2.2.1 k.succ) = ∑ i, δ i • (proj a2 (B i) + ∑ j, γ i j • proj a2 (Y j)))
    (hθ : ∀ l : Fin Q, ∃ ε : Fin n → F,
        proj a1 (w.2.2.2 l.succ) = ∑ j, ε j • (proj a1 (A j) + ∑ i, γ i j • proj a1 (X i))) :
    ∃ r, viewFn u v A X B Y γ r = w := by
  obtain ⟨c, d, π, θ⟩ := w
  simp only at heq hc hd hπ hθ
  choose δ hδ using hπ
  choose ε hε using hθ
  have h1 : ∀ i, ∃ r : F, c i - X i = r • (⟨g1, a1 • g1⟩ : Com G1) := fun i =>
    proj_eq_zero c1 (by rw [map_sub, hc, sub_self])
  have h2 : ∀ j, ∃ r : F, d j - Y j = r • (⟨g2, a2 • g2⟩ : Com G2) := fun j =>
    proj_eq_zero c2 (by rw [map_sub, hd, sub_self])
  choose ρ hρ using h1
  choose κ hκ using h2
  rw [← hu0] at hρ
  rw [← hv0] at hκ
  -- the randomness of the commitments
  let R : Fin m → Fin (P + 1) → F := fun i => Fin.cons (ρ i - ∑ k, δ k i * τ k) fun k => δ k i
  let S : Fin n → Fin (Q + 1) → F := fun j => Fin.cons (κ j - ∑ l, ε l j * σ l) fun l => ε l j
  have hR : ∀ i, c i = X i + ∑ k, R i k • u k := by
    intro i
    rw [Fin.sum_univ_succ]
    simp only [R, Fin.cons_zero, Fin.cons_succ, hu, smul_smul, ← Finset.sum_smul]
    rw [← add_smul, sub_add_cancel, ← hρ]; abel
  have hS : ∀ j, d j = Y j + ∑ k, S j k • v k := by
    intro i
    rw [Fin.sum_univ_succ]
    simp only [S, Fin.cons_zero, Fin.cons_succ, hv, smul_smul, ← Finset.sum_smul]
    rw [← add_smul, sub_add_cancel, ← hκ]; abel
  -- what is left of the proof
  have hΔπ : ∀ k : Fin P, ∃ α : F, π k.succ - piVal B Y γ R S 0 v k.succ = -α • v 0 := by
    intro k
    have : proj a2 (π k.succ - piVal B Y γ R S 0 v k.succ) = 0 := by
      rw [map_sub, hδ, piVal_eq]
      simp [hpv, R]
    obtain ⟨α, hα⟩ := proj_eq_zero c2 this
    exact ⟨-α, by rw [hα, hv0, neg_neg]⟩
  have hΔθ : ∀ l : Fin Q, ∃ β : F, θ l.succ - thetaVal A X γ S 0 u l.succ = β • u 0 := by
    intro k
    have : proj a1 (θ k.succ - thetaVal A X γ S 0 u k.succ) = 0 := by
      rw [map_sub, hε, thetaVal_eq]
      simp [S]
    obtain ⟨α, hα⟩ := proj_eq_zero c1 this
    exact ⟨α, by rw [hα, hu0]⟩
  choose α hα using hΔπ
  choose β hβ using hΔθ
  have hid := gs_identity (ComT.pairL e) A X B Y γ R S 0 u v _ _ hR hS
  rw [heq] at hid
  have h0 : ComT.pairL e (u 0) (π 0 - piVal B Y γ R S 0 v 0 + ∑ k, τ k • (π k.succ - piVal B Y γ R S 0 v k.succ)) +
      ComT.pairL e (θ 0 - thetaVal A X γ S 0 u 0 + ∑ l, σ l • (θ l.succ - thetaVal A X γ S 0 u l.succ)) (v 0) = 0 := by
    have e1 : (∑ k, ComT.pairL e (u k) (π k)) - (∑ k, ComT.pairL e (u k) (piVal B Y γ R S 0 v k)) =
        ComT.pairL e (u 0) (π 0 - piVal B Y γ R S 0 v 0 +
          ∑ k, τ k • (π k.succ - piVal B Y γ R S 0 v k.succ)) := by
      rw [← Finset.sum_sub_distrib, Fin.sum_univ_succ, map_add, map_sum, map_sub]
      congr 1
      refine Finset.sum_congr rfl fun k _ => ?_
      rw [hu, map_smul, map_smul, LinearMap.smul_apply, LinearMap.smul_apply, map_sub, smul_sub]
    have e2 : (∑ k, ComT.pairL e (θ k) (v k)) - (∑ k, ComT.pairL e (thetaVal A X γ S 0 u k) (v k)) =
        ComT.pairL e (θ 0 - thetaVal A X γ S 0 u 0 +
          ∑ l, σ l • (θ l.succ - thetaVal A X γ S 0 u l.succ)) (v 0) := by
      rw [← Finset.sum_sub_distrib, Fin.sum_univ_succ, map_add, map_sum, map_sub, LinearMap.add_apply,
        LinearMap.sub_apply, LinearMap.sum_apply]
      congr 1
      refine Finset.sum_congr rfl fun k _ => ?_
      rw [hv, map_smul, map_smul, map_smul, map_sub, LinearMap.smul_apply, LinearMap.sub_apply, smul_sub]
    rw [← e1, ← e2]
    exact cancel_terms hid
  rw [hu0, hv0] at h0
  obtain ⟨s, hs1, hs2⟩ := pairL_key_zero he hg1 hg2 c1 c2 h0
  rw [← hv0] at hs1
  rw [← hu0] at hs2
  simp only [hα, hβ, smul_smul, ← Finset.sum_smul] at hs1 hs2
  -- the randomness of the proof
  let T : Fin (Q + 1) → Fin (P + 1) → F :=
    Fin.cons (Fin.cons (-s - (∑ k, τ k * α k) - ∑ l, σ l * β l) α) fun l => Fin.cons (β l) 0
  refine ⟨(R, S, T), ?_⟩
  have hpi : piVal B Y γ R S T v = π := by
    funext k
    have e0 : piVal B Y γ R S T v k = piVal B Y γ R S 0 v k - ∑ l, T l k • v l := by
      rw [piVal_eq, piVal_eq]; simp
    rw [e0, sub_eq_iff_eq_add', ← sub_eq_iff_eq_add, Fin.sum_univ_succ]
    cases k using Fin.cases with
    | zero =>
      have : π 0 - piVal B Y γ R S 0 v 0 = s • v 0 - (∑ k, τ k * -α k) • v 0 := by rw [← hs1]; abel
      rw [← neg_sub, this]
      simp only [T, Fin.cons_zero, Fin.cons_succ, hv, smul_smul, ← Finset.sum_smul, mul_neg, Finset.sum_neg_distrib,
        mul_comm (β _)]
      module
    | succ k =>
      rw [← neg_sub, hα]
      simp [T]
  have hth : thetaVal A X γ S T u = θ := by
    funext l
    have e0 : thetaVal A X γ S T u l = thetaVal A X γ S 0 u l + ∑ k, T l k • u k := by
      rw [thetaVal_eq, thetaVal_eq]; simp
    rw [e0, ← eq_sub_iff_add_eq', Fin.sum_univ_succ]
    cases l using Fin.cases with
    | zero =>
      have : θ 0 - thetaVal A X γ S 0 u 0 = -s • u 0 - (∑ k, σ k * β k) • u 0 := by rw [← hs2]; abel
      rw [this]
      simp only [T, Fin.cons_zero, Fin.cons_succ, hu, smul_smul, ← Finset.sum_smul, mul_comm (α _)]
      module
    | succ k =>
      rw [hβ]
      simp [T]
  simp only [viewFn, hpi, hth, Prod.mk.injEq, and_true]
  exact ⟨funext fun i => (hR i).symm, funext fun j => (hS j).symm⟩

/-- Exactly which accepted proofs are published. -/
theorem bind_iff (he : PrimeGroups e) {g1 : G1} {g2 : G2} (hg1 : g1 ≠ 0) (hg2 : g2 ≠ 0) {a1 a2 : F}
    {u : Fin (P + 1) → Com G1} {v : Fin (Q + 1) → Com G2} {τ : Fin P → F} {σ : Fin Q → F}
    (hu0 : u 0 = ⟨g1, a1 • g1⟩) (hv0 : v 0 = ⟨g2, a2 • g2⟩) (hu : ∀ k, u k.succ = τ k • u 0)
    (hv : ∀ l, v l.succ = σ l • v 0)
    {A : Fin n → Com G1} {X : Fin m → Com G1} {B : Fin m → Com G2} {Y : Fin n → Com G2} {γ : Fin m → Fin n → F}
    (w : (Fin m → Com G1) × (Fin n → Com G2) × (Fin (P + 1) → Com G2) × (Fin (Q + 1) → Com G1))
    (heq : (∀ i, proj a1 (w.1 i) = proj a1 (X i)) → (∀ j, proj a2 (w.2.1 j) = proj a2 (Y j)) →
      (∑ j, ComT.pairL e (A j) (w.2.1 j)) + (∑ i, ComT.pairL e (w.1 i) (B i)) +
        (∑ i, ComT.pairL e (w.1 i) (∑ j, γ i j • w.2.1 j)) =
      ((∑ j, ComT.pairL e (A j) (Y j)) + (∑ i, ComT.pairL e (X i) (B i)) +
        ∑ i, ∑ j, γ i j • ComT.pairL e (X i) (Y j)) +
        (∑ k, ComT.pairL e (u k) (w.2.2.1 k)) + ∑ l, ComT.pairL e (w.2.2.2 l) (v l)) :
    (∃ r, viewFn u v A X B Y γ r = w) ↔
      (∀ i, proj a1 (w.1 i) = proj a1 (X i)) ∧ (∀ j, proj a2 (w.2.1 j) = proj a2 (Y j)) ∧
      (P ≠ 0 → (∀ i, proj a2 (B i) + ∑ j, γ i j • proj a2 (Y j) = 0) → ∀ k, proj a2 (w.2.2.1 k) = 0) ∧
      (Q ≠ 0 → (∀ j, proj a1 (A j) + ∑ i, γ i j • proj a1 (X i) = 0) → ∀ l, proj a1 (w.2.2.2 l) = 0) := by
  have hpu : ∀ k, proj a1 (u k) = 0 := by
    intro k
    cases k using Fin.cases with
    | zero => rw [hu0, proj_key0]
    | succ k => rw [hu, hu0, proj_smul_key]
  have hpv : ∀ k, proj a2 (v k) = 0 := by
    intro k
    cases k using Fin.cases with
    | zero => rw [hv0, proj_key0]
    | succ k => rw [hv, hv0, proj_smul_key]
  constructor
  · rintro ⟨r, rfl⟩
    obtain ⟨h1, h2, h3, h4⟩ := bind_published hpu hpv A X B Y γ r
    refine ⟨h1, h2, fun _ hW k => ?_, fun _ hZ l => ?_⟩
    · rw [h3]; simp [hW]
    · rw [h4]; simp [hZ]
  · rintro ⟨h1, h2, h3, h4⟩
    refine bind_range he hg1 hg2 (he.cyclic1 _ hg1) (he.cyclic2 _ hg2) hu0 hv0 hu hv hpu hpv w (heq h1 h2) h1 h2
      (fun k => ?_) fun l => ?_
    · exact combination (he.cyclic2 _ hg2) _ _ fun hW => h3 (by rintro rfl; exact k.elim0) hW _
    · exact combination (he.cyclic1 _ hg1) _ _ fun hZ => h4 (by rintro rfl; exact l.elim0) hZ _

end range
end GS
