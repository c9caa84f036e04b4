import Verif.Lemmas.AnyWI
import Verif.Props.Hiding
import Verif.Props.Degenerate

/-!
# C93 - C96: common reference strings from anywhere

A CRS may come from another party or from a file. These theorems are about every CRS with two elements in each
commitment key, not only those that `generate_crs` returns. `BindingGroup`, `EquivocalGroup`, `BindingScalar`,
`EquivocalScalar`: `Verif/Spec/AnyCrs.lean`.
-/

set_option linter.unusedSectionVars false

namespace GS
variable {F G1 G2 GT : Type} [Field F] [AddCommGroup G1] [Module F G1] [AddCommGroup G2] [Module F G2]
  [AddCommGroup GT] [Module F GT] {e : G1 →ₗ[F] G2 →ₗ[F] GT} {crs : CRS G1 G2 GT}

/-! ### Commitments -/

section
variable {G : Type} [AddCommGroup G] [Module F G]

theorem sameComs_any {m p N : Nat} (hN : N = m * p) {u : Fin p → Com G} {x x' : Fin m → Com G} (D : Fin m → Fin p → F)
    (hD : ∀ i, x i = x' i + ∑ k, D i k • u k) {view view' : (Fin N → F) → Res (List (Com G))}
    (h : ∀ t (R : Fin m → Fin p → F), List.ofFn t = (matOf R).flatten →
      view t = .ok (List.ofFn fun i => x i + ∑ k, R i k • u k))
    (h' : ∀ t (R : Fin m → Fin p → F), List.ofFn t = (matOf R).flatten →
      view' t = .ok (List.ofFn fun i => x' i + ∑ k, R i k • u k)) : SameViews view view' := by
  have hflat : ∀ r : Rands F m 0 p 0, flat r = (matOf r.1).flatten := by
    intro r; simp [flat, matOf]
  refine sameViews_of (n := 0) (q := 0) (p := p) (m := m) (by omega) (out := List.ofFn)
    (fun t r ht => h t r.1 (ht.trans (hflat r))) (fun t r ht => h' t r.1 (ht.trans (hflat r)))
    ⟨⟨fun r => (fun i k => r.1 i k + D i k, r.2), fun r => (fun i k => r.1 i k - D i k, r.2), fun r => by simp,
      fun r => by simp⟩, fun r => ?_⟩
  funext i
  simp only [Equiv.coe_fn_mk, hD, add_smul, Finset.sum_add_distrib]
  abel

theorem EquivocalGroup.vec {u0 u1 : Com G} (h : EquivocalGroup F [u0, u1]) (Z : G) :
    ∃ r : Fin 2 → F, ∑ k, r k • ![u0, u1] k = (⟨0, Z⟩ : Com G) := by
  obtain ⟨r, hr⟩ := h.span Z
  exact ⟨![r.1, r.2], by simp [Fin.sum_univ_two, hr]⟩

theorem EquivocalScalar.vec {u0 u1 : Com G} {u' : List (Com G)} {g : G} (h : EquivocalScalar F (u0 :: u1 :: u') g) :
    ∃ r : Fin 1 → F, ∑ k, r k • ![u0] k = u1 + ⟨0, g⟩ := by
  obtain ⟨s, hs⟩ := h.lift
  exact ⟨![s], by simp [hs]⟩

theorem EquivocalGroup.not_binding [Nontrivial G] {u : List (Com G)} (hu : 2 ≤ u.length) (h : EquivocalGroup F u) :
    ¬ BindingGroup F u := by
  obtain ⟨u0, u1, u', rfl⟩ := two_le_length hu
  intro hb
  obtain ⟨Z, hZ⟩ := exists_ne (0 : G)
  have h0 : CanOpenGroup F (u0 :: u1 :: u') 0 0 := canOpenGroup_cons.mpr ⟨(0, 0), by
    have : (⟨0, 0⟩ : Com G) = 0 := rfl
    simp [groupCom, this]⟩
  exact hZ (hb _ _ _ (h _ _ Z h0) h0)

theorem EquivocalScalar.not_binding {u : List (Com G)} {g : G} (hu : 2 ≤ u.length) (h : EquivocalScalar F u g) :
    ¬ BindingScalar F u g := by
  obtain ⟨u0, u1, u', rfl⟩ := two_le_length hu
  intro hb
  have h0 : CanOpenScalar (u0 :: u1 :: u') g 0 (0 : F) := canOpenScalar_cons.mpr ⟨0, by simp [scalarCom]⟩
  exact one_ne_zero (hb _ _ _ (h _ _ 1 h0) h0)

theorem Commit.OpensGroup.each {u : List (Com G)} {c : Commit F G} {x : List G} (h : c.OpensGroup u x) :
    List.Forall₂ (CanOpenGroup F u) c.coms x := by
  obtain ⟨u0, u1, u', rfl, R, hR, -, hc⟩ := h
  rw [hc]
  clear hc
  induction x generalizing R with
  | nil => simp
  | cons a x ih =>
    cases R with
    | nil => simp at hR
    | cons r R =>
      exact .cons (canOpenGroup_cons.mpr ⟨r, rfl⟩) (ih R (by simpa using hR))

theorem Commit.OpensScalar.each {u : List (Com G)} {g : G} {c : Commit F G} {x : List F} (h : c.OpensScalar u g x) :
    List.Forall₂ (CanOpenScalar u g) c.coms x := by
  obtain ⟨u0, u1, u', rfl, R, hR, -, hc⟩ := h
  rw [hc]
  clear hc
  induction x generalizing R with
  | nil => simp
  | cons a x ih =>
    cases R with
    | nil => simp at hR
    | cons r R =>
      exact .cons (canOpenScalar_cons.mpr ⟨r, rfl⟩) (ih R (by simpa using hR))

theorem forall₂_unique {α β : Type} {P : α → β → Prop} (h : ∀ a b b', P a b → P a b' → b = b') {l : List α}
    {x x' : List β} (h1 : List.Forall₂ P l x) (h2 : List.Forall₂ P l x') : x = x' := by
  induction h1 generalizing x' with
  | nil => cases h2; rfl
  | cons h0 _ ih =>
    cases h2 with
    | cons h0' h2 => rw [h _ _ _ h0 h0', ih h2]

end

/-- C93: which keys are binding for group elements, and that the others are equivocal. -/
theorem C93_group_criterion {G : Type} [AddCommGroup G] [Module F G] (u0 u1 : Com G) :
    BindingGroup F [u0, u1] ↔ ∀ r s : F, (r • u0 + s • u1).c0 = 0 → (r • u0 + s • u1).c1 = 0 := by
  constructor
  · intro h r s h0
    refine h (r • u0 + s • u1) _ 0 (canOpenGroup_cons.mpr ⟨(0, 0), ?_⟩) (canOpenGroup_cons.mpr ⟨(r, s), ?_⟩)
    · ext
      · simpa [groupCom] using h0
      · simp [groupCom]
    · have : (⟨0, 0⟩ : Com G) = 0 := rfl
      simp [groupCom, this]
  · intro h
    by_contra hn
    obtain ⟨Z, r, hZ, hr⟩ := not_bindingGroup hn
    have := h r.1 r.2 (by rw [← hr])
    rw [← hr] at this
    exact hZ this

/-- C93: which keys are binding for scalars. -/
theorem C93_scalar_criterion {G : Type} [AddCommGroup G] [Module F G] (u0 u1 : Com G) (g : G) :
    BindingScalar F [u0, u1] g ↔ ∀ s : F, u1 + ⟨0, g⟩ ≠ s • u0 := by
  constructor
  · intro h s hs
    exact (equivocalScalar_of hs).not_binding (by simp) h
  · intro h
    by_contra hn
    obtain ⟨s, hs⟩ := not_bindingScalar hn
    exact h s hs

/-- C93: with a nonzero generator, a key that binds group elements binds scalars. -/
theorem C93_group_binding_binds_scalars {G : Type} [AddCommGroup G] [Module F G] (u : List (Com G)) (g : G)
    (hu : 2 ≤ u.length) (hg : g ≠ 0) (h : BindingGroup F u) : BindingScalar F u g := by
  obtain ⟨u0, u1, u', rfl⟩ := two_le_length hu
  by_contra hn
  obtain ⟨s, hs⟩ := not_bindingScalar hn
  refine hg (h ⟨0, g⟩ g 0 (canOpenGroup_cons.mpr ⟨(0, 0), by simp [groupCom]⟩)
    (canOpenGroup_cons.mpr ⟨(s, -1), ?_⟩))
  have : (⟨0, 0⟩ : Com G) = 0 := rfl
  rw [groupCom, this, ← hs]
  simp

/-- C93: the key `(O, g), (g, O)` hides group elements and binds scalars. -/
theorem C93_intermediate_key {G : Type} [AddCommGroup G] [Module F G] (g : G) (hg : g ≠ 0)
    (hc : ∀ x : G, ∃ k : F, x = k • g) :
    EquivocalGroup F [(⟨0, g⟩ : Com G), ⟨g, 0⟩] ∧ BindingScalar F [(⟨0, g⟩ : Com G), ⟨g, 0⟩] g := by
  refine ⟨equivocalGroup_of fun Z => ?_, (C93_scalar_criterion _ _ _).mpr fun s hs => ?_⟩
  · obtain ⟨k, rfl⟩ := hc Z
    exact ⟨(k, 0), by ext <;> simp⟩
  · have := congrArg Com.c0 hs
    simp at this
    exact hg this

theorem comsOn_eq {G : Type} {N : Nat} {run : List F → Res (Commit F G × List F)} {t : Fin N → F} {v : List (Com G)}
    (h : comsOn run t = .ok v) : ∃ p, run (List.ofFn t) = .ok p ∧ p.1.coms = v := by
  unfold comsOn at h
  cases hr : run (List.ofFn t) with
  | error => rw [hr] at h; cases h
  | ok p => rw [hr] at h; cases h; exact ⟨p, rfl, rfl⟩

theorem G1_each {x : List G1} {s r : List F} {c : Commit F G1} (h : batchCommitG1 (F := F) x crs s = .ok (c, r)) :
    List.Forall₂ (CanOpenGroup F crs.u) c.coms x := by
  obtain ⟨hne, u0, u1, hu, -⟩ := batchCommitG1_iff.mp h
  obtain ⟨c', r', h', ho⟩ := batchCommitG1_opens (F := F) (rng := s) hne (by rw [hu]; simp)
  rw [h] at h'
  cases h'
  exact ho.each

theorem G2_each {x : List G2} {s r : List F} {c : Commit F G2} (h : batchCommitG2 (F := F) x crs s = .ok (c, r)) :
    List.Forall₂ (CanOpenGroup F crs.v) c.coms x := by
  obtain ⟨hne, u0, u1, hu, -⟩ := batchCommitG2_iff.mp h
  obtain ⟨c', r', h', ho⟩ := batchCommitG2_opens (F := F) (rng := s) hne (by rw [hu]; simp)
  rw [h] at h'
  cases h'
  exact ho.each

theorem scalar_B1_each {x : List F} {s r : List F} {c : Commit F G1} (h : batchCommitScalarToB1 x crs s = .ok (c, r)) :
    List.Forall₂ (CanOpenScalar crs.u crs.g1_gen) c.coms x := by
  obtain ⟨hne, u0, u1, u', hu, -⟩ := batchCommitScalarToB1_iff.mp h
  obtain ⟨c', r', h', ho⟩ := batchCommitScalarToB1_opens (F := F) (rng := s) hne (by rw [hu]; simp)
  rw [h] at h'
  cases h'
  exact ho.each

theorem scalar_B2_each {x : List F} {s r : List F} {c : Commit F G2} (h : batchCommitScalarToB2 x crs s = .ok (c, r)) :
    List.Forall₂ (CanOpenScalar crs.v crs.g2_gen) c.coms x := by
  obtain ⟨hne, u0, u1, u', hu, -⟩ := batchCommitScalarToB2_iff.mp h
  obtain ⟨c', r', h', ho⟩ := batchCommitScalarToB2_opens (F := F) (rng := s) hne (by rw [hu]; simp)
  rw [h] at h'
  cases h'
  exact ho.each

/-- C93: a key is binding exactly when no two calls of `batchCommitG1` on different inputs publish the same values. -/
theorem C93_G1_binding (hu : crs.u.length = 2) :
    BindingGroup F crs.u ↔ ∀ (x x' : List G1) (s s' r r' : List F) (c c' : Commit F G1), batchCommitG1 (F := F) x crs s = .ok (c, r) →
      batchCommitG1 (F := F) x' crs s' = .ok (c', r') → c.coms = c'.coms → x = x' := by
  constructor
  · intro hb x x' s s' r r' c c' h h' hcc
    have o := G1_each h
    have o' := G1_each h'
    rw [hcc] at o
    exact forall₂_unique hb o o'
  · intro h
    by_contra hn
    obtain ⟨u0, u1, hu⟩ := two_of_length hu
    rw [hu] at hn
    obtain ⟨Z, r, hZ, hr⟩ := not_bindingGroup hn
    have h1 := batchCommitG1_draws (F := F) (crs := crs) (m := 1) (by omega) ![Z] hu (draws_flatten ![![0, 0]] (by omega))
    have h2 := batchCommitG1_draws (F := F) (crs := crs) (m := 1) (by omega) ![0] hu (draws_flatten ![![r.1, r.2]] (by omega))
    have := h _ _ _ _ _ _ _ _ h1 h2 (by
      have h00 : (⟨0, 0⟩ : Com G1) = 0 := rfl
      simp [groupCom, hr, h00])
    simp at this
    exact hZ this

/-- C93: a key is equivocal exactly when what `batchCommitG1` publishes has nothing to do with its input. -/
theorem C93_G1_equivocal [Nontrivial G1] (he : PrimeGroups e) (hu : crs.u.length = 2) :
    EquivocalGroup F crs.u ↔ ∀ x x' : List G1, x ≠ [] → x'.length = x.length → SameViews (N := 2 * x.length)
      (comsOn fun rng => batchCommitG1 (F := F) x crs rng) (comsOn fun rng => batchCommitG1 (F := F) x' crs rng) := by
  obtain ⟨u0, u1, hu⟩ := two_of_length hu
  constructor
  · intro heq x x' hx hl
    rw [hu] at heq
    have hm := List.length_pos_iff.mpr hx
    obtain ⟨m, hxm⟩ : ∃ m, x.length = m := ⟨_, rfl⟩
    rw [hxm] at hm hl
    rw [hxm]
    obtain ⟨x, rfl⟩ := exists_ofFn x hxm
    obtain ⟨x', rfl⟩ := exists_ofFn x' hl
    have hD : ∀ i, ∃ D : Fin 2 → F, (⟨0, x i⟩ : Com G1) = ⟨0, x' i⟩ + ∑ k, D k • ![u0, u1] k := fun i => by
      obtain ⟨D, hD⟩ := heq.vec (x i - x' i)
      exact ⟨D, by rw [hD]; ext <;> simp⟩
    choose D hD using hD
    exact sameComs_any (p := 2) (by omega) D hD
      (fun t R ht => comsOn_ok ht (batchCommitG1_draws hm x hu (draws_flatten R (by omega))) (groupCom_sum _ _ x R))
      (fun t R ht => comsOn_ok ht (batchCommitG1_draws hm x' hu (draws_flatten R (by omega))) (groupCom_sum _ _ x' R))
  · intro h
    have hd : BindingGroup F crs.u ∨ EquivocalGroup F crs.u := group_dichotomy he.cyclic1 (by rw [hu]; simp)
    rcases hd with hb | hb
    · exfalso
      obtain ⟨Z, hZ⟩ := exists_ne (0 : G1)
      obtain ⟨φ, hφ⟩ := h [Z] [0] (by simp) rfl
      obtain ⟨v, h1, h2⟩ := hφ 0
      obtain ⟨⟨c, r⟩, h1, hc⟩ := comsOn_eq h1
      obtain ⟨⟨c', r'⟩, h2, hc'⟩ := comsOn_eq h2
      have := (C93_G1_binding (by rw [hu]; rfl)).mp hb _ _ _ _ _ _ _ _ h1 h2 (hc.trans hc'.symm)
      simp at this
      exact hZ this
    · exact hb

/-- C93: there is no third possibility, and a key is not both. -/
theorem C93_G1_either [Nontrivial G1] (he : PrimeGroups e) (hu : crs.u.length = 2) :
    (BindingGroup F crs.u ∨ EquivocalGroup F crs.u) ∧ ¬ (BindingGroup F crs.u ∧ EquivocalGroup F crs.u) :=
  ⟨group_dichotomy he.cyclic1 (by omega), fun h => h.2.not_binding (by omega) h.1⟩

/-- C93: a key is binding exactly when no two calls of `batchCommitG2` on different inputs publish the same values. -/
theorem C93_G2_binding (hu : crs.v.length = 2) :
    BindingGroup F crs.v ↔ ∀ (x x' : List G2) (s s' r r' : List F) (c c' : Commit F G2), batchCommitG2 (F := F) x crs s = .ok (c, r) →
      batchCommitG2 (F := F) x' crs s' = .ok (c', r') → c.coms = c'.coms → x = x' := by
  constructor
  · intro hb x x' s s' r r' c c' h h' hcc
    have o := G2_each h
    have o' := G2_each h'
    rw [hcc] at o
    exact forall₂_unique hb o o'
  · intro h
    by_contra hn
    obtain ⟨u0, u1, hu⟩ := two_of_length hu
    rw [hu] at hn
    obtain ⟨Z, r, hZ, hr⟩ := not_bindingGroup hn
    have h1 := batchCommitG2_draws (F := F) (crs := crs) (m := 1) (by omega) ![Z] hu (draws_flatten ![![0, 0]] (by omega))
    have h2 := batchCommitG2_draws (F := F) (crs := crs) (m := 1) (by omega) ![0] hu (draws_flatten ![![r.1, r.2]] (by omega))
    have := h _ _ _ _ _ _ _ _ h1 h2 (by
      have h00 : (⟨0, 0⟩ : Com G2) = 0 := rfl
      simp [groupCom, hr, h00])
    simp at this
    exact hZ this

/-- C93: a key is equivocal exactly when what `batchCommitG2` publishes has nothing to do with its input. -/
theorem C93_G2_equivocal [Nontrivial G2] (he : PrimeGroups e) (hu : crs.v.length = 2) :
    EquivocalGroup F crs.v ↔ ∀ x x' : List G2, x ≠ [] → x'.length = x.length → SameViews (N := 2 * x.length)
      (comsOn fun rng => batchCommitG2 (F := F) x crs rng) (comsOn fun rng => batchCommitG2 (F := F) x' crs rng) := by
  obtain ⟨u0, u1, hu⟩ := two_of_length hu
  constructor
  · intro heq x x' hx hl
    rw [hu] at heq
    have hm := List.length_pos_iff.mpr hx
    obtain ⟨m, hxm⟩ : ∃ m, x.length = m := ⟨_, rfl⟩
    rw [hxm] at hm hl
    rw [hxm]
    obtain ⟨x, rfl⟩ := exists_ofFn x hxm
    obtain ⟨x', rfl⟩ := exists_ofFn x' hl
    have hD : ∀ i, ∃ D : Fin 2 → F, (⟨0, x i⟩ : Com G2) = ⟨0, x' i⟩ + ∑ k, D k • ![u0, u1] k := fun i => by
      obtain ⟨D, hD⟩ := heq.vec (x i - x' i)
      exact ⟨D, by rw [hD]; ext <;> simp⟩
    choose D hD using hD
    exact sameComs_any (p := 2) (by omega) D hD
      (fun t R ht => comsOn_ok ht (batchCommitG2_draws hm x hu (draws_flatten R (by omega))) (groupCom_sum _ _ x R))
      (fun t R ht => comsOn_ok ht (batchCommitG2_draws hm x' hu (draws_flatten R (by omega))) (groupCom_sum _ _ x' R))
  · intro h
    have hd : BindingGroup F crs.v ∨ EquivocalGroup F crs.v := group_dichotomy he.cyclic2 (by rw [hu]; simp)
    rcases hd with hb | hb
    · exfalso
      obtain ⟨Z, hZ⟩ := exists_ne (0 : G2)
      obtain ⟨φ, hφ⟩ := h [Z] [0] (by simp) rfl
      obtain ⟨v, h1, h2⟩ := hφ 0
      obtain ⟨⟨c, r⟩, h1, hc⟩ := comsOn_eq h1
      obtain ⟨⟨c', r'⟩, h2, hc'⟩ := comsOn_eq h2
      have := (C93_G2_binding (by rw [hu]; rfl)).mp hb _ _ _ _ _ _ _ _ h1 h2 (hc.trans hc'.symm)
      simp at this
      exact hZ this
    · exact hb

/-- C93: there is no third possibility, and a key is not both. -/
theorem C93_G2_either [Nontrivial G2] (he : PrimeGroups e) (hu : crs.v.length = 2) :
    (BindingGroup F crs.v ∨ EquivocalGroup F crs.v) ∧ ¬ (BindingGroup F crs.v ∧ EquivocalGroup F crs.v) :=
  ⟨group_dichotomy he.cyclic2 (by omega), fun h => h.2.not_binding (by omega) h.1⟩

/-- C93: a key is binding exactly when no two calls of `batchCommitScalarToB1` on different inputs publish the same values. -/
theorem C93_scalar_B1_binding (hu : crs.u.length = 2) :
    BindingScalar F crs.u crs.g1_gen ↔ ∀ (x x' : List F) (s s' r r' : List F) (c c' : Commit F G1), batchCommitScalarToB1 x crs s = .ok (c, r) →
      batchCommitScalarToB1 x' crs s' = .ok (c', r') → c.coms = c'.coms → x = x' := by
  constructor
  · intro hb x x' s s' r r' c c' h h' hcc
    have o := scalar_B1_each h
    have o' := scalar_B1_each h'
    rw [hcc] at o
    exact forall₂_unique hb o o'
  · intro h
    by_contra hn
    obtain ⟨u0, u1, hu⟩ := two_of_length hu
    rw [hu] at hn
    obtain ⟨r, hr⟩ := not_bindingScalar hn
    have h1 := batchCommitB1_draws (F := F) (crs := crs) (m := 1) (by omega) ![1] hu (draws_flatten ![![0]] (by omega))
    have h2 := batchCommitB1_draws (F := F) (crs := crs) (m := 1) (by omega) ![0] hu (draws_flatten ![![r]] (by omega))
    have := h _ _ _ _ _ _ _ _ h1 h2 (by simp [scalarCom, hr])
    simp at this

/-- C93: a key is equivocal exactly when what `batchCommitScalarToB1` publishes has nothing to do with its input. -/
theorem C93_scalar_B1_equivocal (hu : crs.u.length = 2) :
    EquivocalScalar F crs.u crs.g1_gen ↔ ∀ x x' : List F, x ≠ [] → x'.length = x.length → SameViews (N := x.length)
      (comsOn fun rng => batchCommitScalarToB1 x crs rng) (comsOn fun rng => batchCommitScalarToB1 x' crs rng) := by
  obtain ⟨u0, u1, hu⟩ := two_of_length hu
  constructor
  · intro heq x x' hx hl
    rw [hu] at heq
    have hm := List.length_pos_iff.mpr hx
    obtain ⟨m, hxm⟩ : ∃ m, x.length = m := ⟨_, rfl⟩
    rw [hxm] at hm hl
    rw [hxm]
    obtain ⟨x, rfl⟩ := exists_ofFn x hxm
    obtain ⟨x', rfl⟩ := exists_ofFn x' hl
    obtain ⟨s, hs⟩ := heq.vec
    have hD : ∀ i, x i • (u1 + (⟨0, crs.g1_gen⟩ : Com G1)) = x' i • (u1 + ⟨0, crs.g1_gen⟩) + ∑ k, (fun i k => (x i - x' i) * s k) i k • ![u0] k :=
      fun i => by
        simp only [mul_smul, ← Finset.smul_sum]
        rw [hs]; module
    exact sameComs_any (p := 1) (by omega) _ hD
      (fun t R ht => comsOn_ok ht (batchCommitB1_draws hm x hu (draws_flatten R (by omega))) (scalarCom_sum _ _ _ x R))
      (fun t R ht => comsOn_ok ht (batchCommitB1_draws hm x' hu (draws_flatten R (by omega))) (scalarCom_sum _ _ _ x' R))
  · intro h
    have hd : BindingScalar F crs.u crs.g1_gen ∨ EquivocalScalar F crs.u crs.g1_gen := scalar_dichotomy _ (by rw [hu]; simp)
    rcases hd with hb | hb
    · exfalso
      obtain ⟨φ, hφ⟩ := h [1] [0] (by simp) rfl
      obtain ⟨v, h1, h2⟩ := hφ 0
      obtain ⟨⟨c, r⟩, h1, hc⟩ := comsOn_eq h1
      obtain ⟨⟨c', r'⟩, h2, hc'⟩ := comsOn_eq h2
      have := (C93_scalar_B1_binding (by rw [hu]; rfl)).mp hb _ _ _ _ _ _ _ _ h1 h2 (hc.trans hc'.symm)
      simp at this
    · exact hb

/-- C93: there is no third possibility, and a key is not both. -/
theorem C93_scalar_B1_either (hu : crs.u.length = 2) :
    (BindingScalar F crs.u crs.g1_gen ∨ EquivocalScalar F crs.u crs.g1_gen) ∧ ¬ (BindingScalar F crs.u crs.g1_gen ∧ EquivocalScalar F crs.u crs.g1_gen) :=
  ⟨scalar_dichotomy _ (by omega), fun h => h.2.not_binding (by omega) h.1⟩

/-- C93: a key is binding exactly when no two calls of `batchCommitScalarToB2` on different inputs publish the same values. -/
theorem C93_scalar_B2_binding (hu : crs.v.length = 2) :
    BindingScalar F crs.v crs.g2_gen ↔ ∀ (x x' : List F) (s s' r r' : List F) (c c' : Commit F G2), batchCommitScalarToB2 x crs s = .ok (c, r) →
      batchCommitScalarToB2 x' crs s' = .ok (c', r') → c.coms = c'.coms → x = x' := by
  constructor
  · intro hb x x' s s' r r' c c' h h' hcc
    have o := scalar_B2_each h
    have o' := scalar_B2_each h'
    rw [hcc] at o
    exact forall₂_unique hb o o'
  · intro h
    by_contra hn
    obtain ⟨u0, u1, hu⟩ := two_of_length hu
    rw [hu] at hn
    obtain ⟨r, hr⟩ := not_bindingScalar hn
    have h1 := batchCommitB2_draws (F := F) (crs := crs) (m := 1) (by omega) ![1] hu (draws_flatten ![![0]] (by omega))
    have h2 := batchCommitB2_draws (F := F) (crs := crs) (m := 1) (by omega) ![0] hu (draws_flatten ![![r]] (by omega))
    have := h _ _ _ _ _ _ _ _ h1 h2 (by simp [scalarCom, hr])
    simp at this

/-- C93: a key is equivocal exactly when what `batchCommitScalarToB2` publishes has nothing to do with its input. -/
theorem C93_scalar_B2_equivocal (hu : crs.v.length = 2) :
    EquivocalScalar F crs.v crs.g2_gen ↔ ∀ x x' : List F, x ≠ [] → x'.length = x.length → SameViews (N := x.length)
      (comsOn fun rng => batchCommitScalarToB2 x crs rng) (comsOn fun rng => batchCommitScalarToB2 x' crs rng) := by
  obtain ⟨u0, u1, hu⟩ := two_of_length hu
  constructor
  · intro heq x x' hx hl
    rw [hu] at heq
    have hm := List.length_pos_iff.mpr hx
    obtain ⟨m, hxm⟩ : ∃ m, x.length = m := ⟨_, rfl⟩
    rw [hxm] at hm hl
    rw [hxm]
    obtain ⟨x, rfl⟩ := exists_ofFn x hxm
    obtain ⟨x', rfl⟩ := exists_ofFn x' hl
    obtain ⟨s, hs⟩ := heq.vec
    have hD : ∀ i, x i • (u1 + (⟨0, crs.g2_gen⟩ : Com G2)) = x' i • (u1 + ⟨0, crs.g2_gen⟩) + ∑ k, (fun i k => (x i - x' i) * s k) i k • ![u0] k :=
      fun i => by
        simp only [mul_smul, ← Finset.smul_sum]
        rw [hs]; module
    exact sameComs_any (p := 1) (by omega) _ hD
      (fun t R ht => comsOn_ok ht (batchCommitB2_draws hm x hu (draws_flatten R (by omega))) (scalarCom_sum _ _ _ x R))
      (fun t R ht => comsOn_ok ht (batchCommitB2_draws hm x' hu (draws_flatten R (by omega))) (scalarCom_sum _ _ _ x' R))
  · intro h
    have hd : BindingScalar F crs.v crs.g2_gen ∨ EquivocalScalar F crs.v crs.g2_gen := scalar_dichotomy _ (by rw [hu]; simp)
    rcases hd with hb | hb
    · exfalso
      obtain ⟨φ, hφ⟩ := h [1] [0] (by simp) rfl
      obtain ⟨v, h1, h2⟩ := hφ 0
      obtain ⟨⟨c, r⟩, h1, hc⟩ := comsOn_eq h1
      obtain ⟨⟨c', r'⟩, h2, hc'⟩ := comsOn_eq h2
      have := (C93_scalar_B2_binding (by rw [hu]; rfl)).mp hb _ _ _ _ _ _ _ _ h1 h2 (hc.trans hc'.symm)
      simp at this
    · exact hb

/-- C93: there is no third possibility, and a key is not both. -/
theorem C93_scalar_B2_either (hu : crs.v.length = 2) :
    (BindingScalar F crs.v crs.g2_gen ∨ EquivocalScalar F crs.v crs.g2_gen) ∧ ¬ (BindingScalar F crs.v crs.g2_gen ∧ EquivocalScalar F crs.v crs.g2_gen) :=
  ⟨scalar_dichotomy _ (by omega), fun h => h.2.not_binding (by omega) h.1⟩

/-! ### Soundness -/

section
variable [DecidableEq GT]

/-- C94: if the commitments used by PPE proofs are binding, then for every accepted proof there is a solution
that assigns to each commitment the only value it can be opened to. -/
theorem C94_ppe_extract (he : PrimeGroups e) (hu : crs.u.length = 2) (hv : crs.v.length = 2)
    (h1 : BindingGroup F crs.u) (h2 : BindingGroup F crs.v) (equ : PPE F G1 G2 GT) (cp : CProof F G1 G2) (sch : Scheduler)
    (h : equ.verify e sch cp crs = .ok true) :
    ∃ x y, OnlyGroup F crs.u cp.xcoms.coms x ∧ OnlyGroup F crs.v cp.ycoms.coms y ∧ equ.Holds e x y :=
  PPE.extract_any he hu hv h1 h2 h

/-- C94: no false PPE statement has an accepted proof exactly when the commitments on both sides are binding. -/
theorem C94_ppe [Nontrivial G1] [Nontrivial G2] (he : PrimeGroups e) (hu : crs.u.length = 2) (hv : crs.v.length = 2) :
    (∀ (equ : PPE F G1 G2 GT) (cp : CProof F G1 G2) (sch : Scheduler), equ.verify e sch cp crs = .ok true → ∃ x y, equ.Holds e x y) ↔
      BindingGroup F crs.u ∧ BindingGroup F crs.v := by
  constructor
  · intro h
    by_contra hn
    obtain ⟨equ, cp, h1, h2⟩ := PPE.forge he hu hv hn
    obtain ⟨x, y, hh⟩ := h equ cp forwards (h1 _)
    exact h2 x y hh
  · intro hb equ cp sch h
    obtain ⟨x, y, -, -, hh⟩ := C94_ppe_extract he hu hv hb.1 hb.2 equ cp sch h
    exact ⟨x, y, hh⟩

/-- C94: if the commitments used by MSMEG1 proofs are binding, then for every accepted proof there is a solution
that assigns to each commitment the only value it can be opened to. -/
theorem C94_msmeg1_extract (he : PrimeGroups e) (hu : crs.u.length = 2) (hv : crs.v.length = 2)
    (h1 : BindingGroup F crs.u) (h2 : BindingScalar F crs.v crs.g2_gen) (equ : MSMEG1 F G1) (cp : CProof F G1 G2) (sch : Scheduler)
    (h : equ.verify e sch cp crs = .ok true) :
    ∃ x y, OnlyGroup F crs.u cp.xcoms.coms x ∧ OnlyScalar crs.v crs.g2_gen cp.ycoms.coms y ∧ equ.Holds x y :=
  MSMEG1.extract_any he hu hv h1 h2 h

/-- C94: no false MSMEG1 statement has an accepted proof exactly when the commitments on both sides are binding. -/
theorem C94_msmeg1 [Nontrivial G1] (he : PrimeGroups e) (hu : crs.u.length = 2) (hv : crs.v.length = 2) :
    (∀ (equ : MSMEG1 F G1) (cp : CProof F G1 G2) (sch : Scheduler), equ.verify e sch cp crs = .ok true → ∃ x y, equ.Holds x y) ↔
      BindingGroup F crs.u ∧ BindingScalar F crs.v crs.g2_gen := by
  constructor
  · intro h
    by_contra hn
    obtain ⟨equ, cp, h1, h2⟩ := MSMEG1.forge (e := e) hu hv hn
    obtain ⟨x, y, hh⟩ := h equ cp forwards (h1 _)
    exact h2 x y hh
  · intro hb equ cp sch h
    obtain ⟨x, y, -, -, hh⟩ := C94_msmeg1_extract he hu hv hb.1 hb.2 equ cp sch h
    exact ⟨x, y, hh⟩

/-- C94: if the commitments used by MSMEG2 proofs are binding, then for every accepted proof there is a solution
that assigns to each commitment the only value it can be opened to. -/
theorem C94_msmeg2_extract (he : PrimeGroups e) (hu : crs.u.length = 2) (hv : crs.v.length = 2)
    (h1 : BindingScalar F crs.u crs.g1_gen) (h2 : BindingGroup F crs.v) (equ : MSMEG2 F G2) (cp : CProof F G1 G2) (sch : Scheduler)
    (h : equ.verify e sch cp crs = .ok true) :
    ∃ x y, OnlyScalar crs.u crs.g1_gen cp.xcoms.coms x ∧ OnlyGroup F crs.v cp.ycoms.coms y ∧ equ.Holds x y :=
  MSMEG2.extract_any he hu hv h1 h2 h

/-- C94: no false MSMEG2 statement has an accepted proof exactly when the commitments on both sides are binding. -/
theorem C94_msmeg2 [Nontrivial G2] (he : PrimeGroups e) (hu : crs.u.length = 2) (hv : crs.v.length = 2) :
    (∀ (equ : MSMEG2 F G2) (cp : CProof F G1 G2) (sch : Scheduler), equ.verify e sch cp crs = .ok true → ∃ x y, equ.Holds x y) ↔
      BindingScalar F crs.u crs.g1_gen ∧ BindingGroup F crs.v := by
  constructor
  · intro h
    by_contra hn
    obtain ⟨equ, cp, h1, h2⟩ := MSMEG2.forge (e := e) hu hv hn
    obtain ⟨x, y, hh⟩ := h equ cp forwards (h1 _)
    exact h2 x y hh
  · intro hb equ cp sch h
    obtain ⟨x, y, -, -, hh⟩ := C94_msmeg2_extract he hu hv hb.1 hb.2 equ cp sch h
    exact ⟨x, y, hh⟩

/-- C94: if the commitments used by quadratic proofs are binding, then for every accepted proof there is a solution
that assigns to each commitment the only value it can be opened to. -/
theorem C94_quad_extract (he : PrimeGroups e) (hu : crs.u.length = 2) (hv : crs.v.length = 2)
    (h1 : BindingScalar F crs.u crs.g1_gen) (h2 : BindingScalar F crs.v crs.g2_gen) (equ : QuadEqu F) (cp : CProof F G1 G2) (sch : Scheduler)
    (h : equ.verify e sch cp crs = .ok true) :
    ∃ x y, OnlyScalar crs.u crs.g1_gen cp.xcoms.coms x ∧ OnlyScalar crs.v crs.g2_gen cp.ycoms.coms y ∧ equ.Holds x y :=
  QuadEqu.extract_any he hu.ge hv.ge h1 h2 h

/-- C94: no false quadratic statement has an accepted proof exactly when the commitments on both sides are binding. -/
theorem C94_quad (he : PrimeGroups e) (hu : crs.u.length = 2) (hv : crs.v.length = 2) :
    (∀ (equ : QuadEqu F) (cp : CProof F G1 G2) (sch : Scheduler), equ.verify e sch cp crs = .ok true → ∃ x y, equ.Holds x y) ↔
      BindingScalar F crs.u crs.g1_gen ∧ BindingScalar F crs.v crs.g2_gen := by
  constructor
  · intro h
    by_contra hn
    obtain ⟨equ, cp, h1, h2⟩ := QuadEqu.forge (e := e) hu.ge hv.ge hn
    obtain ⟨x, y, hh⟩ := h equ cp forwards (h1 _)
    exact h2 x y hh
  · intro hb equ cp sch h
    obtain ⟨x, y, -, -, hh⟩ := C94_quad_extract he hu hv hb.1 hb.2 equ cp sch h
    exact ⟨x, y, hh⟩

end

/-! ### Witness indistinguishability -/

/-- Runs with the same views have commitments in common. -/
theorem sameViews_coms {m n p q N : Nat} (hN : N = m * p + n * q + q * p) {ty : EquType}
    {view view' : (Fin N → F) → Res (View G1 G2)} {u : Fin p → Com G1} {v : Fin q → Com G2} {a : Fin n → Com G1}
    {x x' : Fin m → Com G1} {b : Fin m → Com G2} {y y' : Fin n → Com G2} {γ : Fin m → Fin n → F}
    (h : ∀ t r, List.ofFn t = flat r → view t = .ok (pub ty (viewFn u v a x b y γ r)))
    (h' : ∀ t r, List.ofFn t = flat r → view' t = .ok (pub ty (viewFn u v a x' b y' γ r))) (hs : SameViews view view') :
    ∃ (R R' : Fin m → Fin p → F) (S S' : Fin n → Fin q → F),
      (∀ i, x i + ∑ k, R i k • u k = x' i + ∑ k, R' i k • u k) ∧
      (∀ j, y j + ∑ l, S j l • v l = y' j + ∑ l, S' j l • v l) := by
  obtain ⟨φ, hφ⟩ := hs
  obtain ⟨w, h1, h2⟩ := hφ 0
  obtain ⟨r, hr⟩ := exists_flat (m := m) (n := n) (p := p) (q := q) (List.ofFn (0 : Fin N → F)) (by simp [hN])
  obtain ⟨r', hr'⟩ := exists_flat (m := m) (n := n) (p := p) (q := q) (List.ofFn (φ 0)) (by simp [hN])
  rw [h _ _ hr] at h1
  rw [h' _ _ hr'] at h2
  have := Except.ok.inj (h1.trans h2.symm)
  simp only [pub, viewFn, Prod.mk.injEq, List.ofFn_inj] at this
  exact ⟨r.1, r'.1, r.2.1, r'.2.1, congrFun this.1, congrFun this.2.1⟩

section
variable {G : Type} [AddCommGroup G] [Module F G]

theorem not_binding_of_group {u0 u1 : Com G} {Z : G} (hZ : Z ≠ 0) {R R' : Fin 2 → F}
    (h : (⟨0, Z⟩ : Com G) + ∑ k, R k • ![u0, u1] k = ⟨0, 0⟩ + ∑ k, R' k • ![u0, u1] k) : ¬ BindingGroup F [u0, u1] := by
  intro hb
  refine hZ (hb _ _ _ (canOpenGroup_cons.mpr ⟨(R 0, R 1), rfl⟩) (canOpenGroup_cons.mpr ⟨(R' 0, R' 1), ?_⟩))
  simpa [groupCom, Fin.sum_univ_two, add_assoc] using h

theorem not_binding_of_scalar {u0 u1 : Com G} {u' : List (Com G)} {g : G} {R R' : Fin 1 → F}
    (h : (1 : F) • (u1 + (⟨0, g⟩ : Com G)) + ∑ k, R k • ![u0] k = (0 : F) • (u1 + ⟨0, g⟩) + ∑ k, R' k • ![u0] k) :
    ¬ BindingScalar F (u0 :: u1 :: u') g := by
  intro hb
  refine one_ne_zero (hb _ (1 : F) 0 (canOpenScalar_cons.mpr ⟨R 0, rfl⟩) (canOpenScalar_cons.mpr ⟨R' 0, ?_⟩))
  simpa [scalarCom] using h

end

/-- C95: PPE proofs are perfectly witness indistinguishable exactly when the commitments on both sides are
equivocal. -/
theorem C95_ppe [Nontrivial G1] [Nontrivial G2] (he : PrimeGroups e) (hu : crs.u.length = 2) (hv : crs.v.length = 2) :
    (∀ (equ : PPE F G1 G2 GT) (x x' : List G1) (y y' : List G2), x ≠ [] → y ≠ [] → equ.Dims x.length y.length →
      x'.length = x.length → y'.length = y.length → equ.Holds e x y → equ.Holds e x' y' → ∀ sch sch' : Nat → Scheduler,
      SameViews (N := 2 * x.length + 2 * y.length + 4)
        (viewOn fun rng => equ.commitAndProve sch x y crs rng) (viewOn fun rng => equ.commitAndProve sch' x' y' crs rng)) ↔
      EquivocalGroup F crs.u ∧ EquivocalGroup F crs.v := by
  obtain ⟨u0, u1, hu⟩ := two_of_length hu
  obtain ⟨v0, v1, hv⟩ := two_of_length hv
  constructor
  · intro h
    have hdims : ∀ t, (zeroPPE t : PPE F G1 G2 GT).Dims 1 1 := fun t => by constructor <;> simp [zeroPPE]
    constructor
    · obtain ⟨Z, hZ⟩ := exists_ne (0 : G1)
      obtain ⟨R, R', S, S', h1, h2⟩ := sameViews_coms (m := 1) (n := 1) (p := 2) (q := 2) (by rfl)
        (PPE.view_eq (self := zeroPPE 0) (m := 1) (n := 1) (by omega) (by omega) (a := ![0]) (b := ![0]) (γ := ![![0]]) rfl rfl rfl ![Z] ![0] hu hv)
        (PPE.view_eq (self := zeroPPE 0) (m := 1) (n := 1) (by omega) (by omega) (a := ![0]) (b := ![0]) (γ := ![![0]]) rfl rfl rfl ![0] ![0] hu hv)
        (h (zeroPPE 0) [Z] [0] [0] [0] (by simp) (by simp) (hdims _) rfl rfl (zeroPPE_holds.mpr rfl) (zeroPPE_holds.mpr rfl) (fun _ => forwards) (fun _ => forwards))
      refine (group_dichotomy he.cyclic1 (by rw [hu]; simp) : BindingGroup F crs.u ∨ EquivocalGroup F crs.u).resolve_left ?_
      rw [hu]
      exact not_binding_of_group hZ (by simpa [i1_apply, i2_apply] using h1 0)
    · obtain ⟨Z, hZ⟩ := exists_ne (0 : G2)
      obtain ⟨R, R', S, S', h1, h2⟩ := sameViews_coms (m := 1) (n := 1) (p := 2) (q := 2) (by rfl)
        (PPE.view_eq (self := zeroPPE 0) (m := 1) (n := 1) (by omega) (by omega) (a := ![0]) (b := ![0]) (γ := ![![0]]) rfl rfl rfl ![0] ![Z] hu hv)
        (PPE.view_eq (self := zeroPPE 0) (m := 1) (n := 1) (by omega) (by omega) (a := ![0]) (b := ![0]) (γ := ![![0]]) rfl rfl rfl ![0] ![0] hu hv)
        (h (zeroPPE 0) [0] [0] [Z] [0] (by simp) (by simp) (hdims _) rfl rfl (zeroPPE_holds.mpr rfl) (zeroPPE_holds.mpr rfl) (fun _ => forwards) (fun _ => forwards))
      refine (group_dichotomy he.cyclic2 (by rw [hv]; simp) : BindingGroup F crs.v ∨ EquivocalGroup F crs.v).resolve_left ?_
      rw [hv]
      exact not_binding_of_group hZ (by simpa [i1_apply, i2_apply] using h2 0)
  · rintro ⟨e1, e2⟩ equ x x' y y' hx hy hd hlx hly h h' sch sch'
    have hm := List.length_pos_iff.mpr hx
    have hn := List.length_pos_iff.mpr hy
    obtain ⟨m, hxm⟩ : ∃ m, x.length = m := ⟨_, rfl⟩
    obtain ⟨n, hyn⟩ : ∃ n, y.length = n := ⟨_, rfl⟩
    rw [hxm] at hm hd hlx
    rw [hyn] at hn hd hly
    rw [hxm, hyn]
    obtain ⟨a, ha⟩ := exists_ofFn equ.a_consts hd.a
    obtain ⟨b, hb⟩ := exists_ofFn equ.b_consts hd.b
    obtain ⟨γ, hγ⟩ := rect_iff.mp (⟨hd.rows, hd.cols⟩ : Rect _ _ equ.gamma)
    obtain ⟨x, rfl⟩ := exists_ofFn x hxm
    obtain ⟨y, rfl⟩ := exists_ofFn y hyn
    obtain ⟨x', rfl⟩ := exists_ofFn x' hlx
    obtain ⟨y', rfl⟩ := exists_ofFn y' hly
    refine sameViews_of (p := 2) (q := 2) (by omega) (PPE.view_eq hm hn ha hb hγ x y hu hv) (PPE.view_eq hm hn ha hb hγ x' y' hu hv) ?_
    rw [PPE.Holds, ha, hb, hγ, equLhs_ofFn] at h h'
    obtain ⟨Z, hZ⟩ := exists_ne (0 : G1)
    choose cx hcx using fun i => he.cyclic1 Z hZ (x i)
    choose cx' hcx' using fun i => he.cyclic1 Z hZ (x' i)
    obtain ⟨r, hr⟩ := EquivocalGroup.vec (hu ▸ e1) Z
    have i1c : ∀ k : F, i1 (F := F) (k • Z) = k • (⟨0, Z⟩ : Com G1) := fun k => by rw [map_smul]; rfl
    choose ca hca using fun i => he.cyclic1 Z hZ (a i)
    obtain ⟨W, hW⟩ := exists_ne (0 : G2)
    choose cy hcy using fun i => he.cyclic2 W hW (y i)
    choose cy' hcy' using fun i => he.cyclic2 W hW (y' i)
    choose cb hcb using fun i => he.cyclic2 W hW (b i)
    obtain ⟨s, hs⟩ := EquivocalGroup.vec (hv ▸ e2) W
    have i2c : ∀ k : F, i2 (F := F) (k • W) = k • (⟨0, W⟩ : Com G2) := fun k => by rw [map_smul]; rfl
    simp only [hca, hcx, hcx', hcb, hcy, hcy'] at h h' ⊢
    simp only [i1c, i2c]
    refine viewFn_equiv_any _ _ r s _ _ hr hs ca cx cx' cb cy cy' γ ?_
    have hne : (e Z W) ≠ 0 := (fun h0 => (he.nondeg _ _ h0).elim hZ hW)
    refine smul_left_injective F hne ?_
    have hh := h.trans h'.symm
    simp only [map_smul, LinearMap.smul_apply, smul_smul] at hh
    simp only [add_smul, Finset.sum_smul]
    convert hh using 3 <;> first | (refine Finset.sum_congr rfl fun _ _ => ?_; first | rfl | (congr 1; ring) | (refine Finset.sum_congr rfl fun _ _ => ?_; first | rfl | (congr 1; ring))) | rfl

/-- C96: what a PPE proof publishes does not depend on which `xvars` solve the equation, for given `yvars`,
exactly when the commitments to `xvars` are equivocal. -/
theorem C96_ppe_left [Nontrivial G1] (he : PrimeGroups e) (hu : crs.u.length = 2) (hv : crs.v.length = 2) :
    (∀ (equ : PPE F G1 G2 GT) (x x' : List G1) (y : List G2), x ≠ [] → y ≠ [] → equ.Dims x.length y.length →
      x'.length = x.length → equ.Holds e x y → equ.Holds e x' y → ∀ sch sch' : Nat → Scheduler,
      SameViews (N := 2 * x.length + 2 * y.length + 4)
        (viewOn fun rng => equ.commitAndProve sch x y crs rng) (viewOn fun rng => equ.commitAndProve sch' x' y crs rng)) ↔
      EquivocalGroup F crs.u := by
  obtain ⟨u0, u1, hu⟩ := two_of_length hu
  obtain ⟨v0, v1, hv⟩ := two_of_length hv
  constructor
  · intro h
    have hdims : ∀ t, (zeroPPE t : PPE F G1 G2 GT).Dims 1 1 := fun t => by constructor <;> simp [zeroPPE]
    obtain ⟨Z, hZ⟩ := exists_ne (0 : G1)
    obtain ⟨R, R', S, S', h1, h2⟩ := sameViews_coms (m := 1) (n := 1) (p := 2) (q := 2) (by rfl)
      (PPE.view_eq (self := zeroPPE 0) (m := 1) (n := 1) (by omega) (by omega) (a := ![0]) (b := ![0]) (γ := ![![0]]) rfl rfl rfl ![Z] ![0] hu hv)
      (PPE.view_eq (self := zeroPPE 0) (m := 1) (n := 1) (by omega) (by omega) (a := ![0]) (b := ![0]) (γ := ![![0]]) rfl rfl rfl ![0] ![0] hu hv)
      (h (zeroPPE 0) [Z] [0] [0] (by simp) (by simp) (hdims _) rfl (zeroPPE_holds.mpr rfl) (zeroPPE_holds.mpr rfl) (fun _ => forwards) (fun _ => forwards))
    refine (group_dichotomy he.cyclic1 (by rw [hu]; simp) : BindingGroup F crs.u ∨ EquivocalGroup F crs.u).resolve_left ?_
    rw [hu]
    exact not_binding_of_group hZ (by simpa [i1_apply, i2_apply] using h1 0)
  · intro e1 equ x x' y hx hy hd hlx h h' sch sch'
    have hm := List.length_pos_iff.mpr hx
    have hn := List.length_pos_iff.mpr hy
    obtain ⟨m, hxm⟩ : ∃ m, x.length = m := ⟨_, rfl⟩
    obtain ⟨n, hyn⟩ : ∃ n, y.length = n := ⟨_, rfl⟩
    rw [hxm] at hm hd hlx
    rw [hyn] at hn hd
    rw [hxm, hyn]
    obtain ⟨a, ha⟩ := exists_ofFn equ.a_consts hd.a
    obtain ⟨b, hb⟩ := exists_ofFn equ.b_consts hd.b
    obtain ⟨γ, hγ⟩ := rect_iff.mp (⟨hd.rows, hd.cols⟩ : Rect _ _ equ.gamma)
    obtain ⟨x, rfl⟩ := exists_ofFn x hxm
    obtain ⟨y, rfl⟩ := exists_ofFn y hyn
    obtain ⟨x', rfl⟩ := exists_ofFn x' hlx
    refine sameViews_of (p := 2) (q := 2) (by omega) (PPE.view_eq hm hn ha hb hγ x y hu hv) (PPE.view_eq hm hn ha hb hγ x' y hu hv) ?_
    rw [PPE.Holds, ha, hb, hγ, equLhs_ofFn] at h h'
    obtain ⟨Z, hZ⟩ := exists_ne (0 : G1)
    choose κ hκ using fun i => he.cyclic1 Z hZ (x' i - x i)
    obtain ⟨r, hr⟩ := EquivocalGroup.vec (hu ▸ e1) Z
    have hκ' : ∀ i, x' i = x i + κ i • Z := fun i => by rw [← hκ]; abel
    refine viewFn_equiv_left _ _ r _ hr _ _ _ _ _ γ κ (fun i => by rw [hκ', map_add, map_smul]; rfl) ?_
    have hh := h'.trans h.symm
    have h0 := diff_left e (Z := Z) hκ' hh
    exact map_left i2 ((he.nondeg _ _ h0).resolve_left hZ)

/-- C96: what a PPE proof publishes does not depend on which `yvars` solve the equation, for given `xvars`,
exactly when the commitments to `yvars` are equivocal. -/
theorem C96_ppe_right [Nontrivial G2] (he : PrimeGroups e) (hu : crs.u.length = 2) (hv : crs.v.length = 2) :
    (∀ (equ : PPE F G1 G2 GT) (x : List G1) (y y' : List G2), x ≠ [] → y ≠ [] → equ.Dims x.length y.length →
      y'.length = y.length → equ.Holds e x y → equ.Holds e x y' → ∀ sch sch' : Nat → Scheduler,
      SameViews (N := 2 * x.length + 2 * y.length + 4)
        (viewOn fun rng => equ.commitAndProve sch x y crs rng) (viewOn fun rng => equ.commitAndProve sch' x y' crs rng)) ↔
      EquivocalGroup F crs.v := by
  obtain ⟨u0, u1, hu⟩ := two_of_length hu
  obtain ⟨v0, v1, hv⟩ := two_of_length hv
  constructor
  · intro h
    have hdims : ∀ t, (zeroPPE t : PPE F G1 G2 GT).Dims 1 1 := fun t => by constructor <;> simp [zeroPPE]
    obtain ⟨Z, hZ⟩ := exists_ne (0 : G2)
    obtain ⟨R, R', S, S', h1, h2⟩ := sameViews_coms (m := 1) (n := 1) (p := 2) (q := 2) (by rfl)
      (PPE.view_eq (self := zeroPPE 0) (m := 1) (n := 1) (by omega) (by omega) (a := ![0]) (b := ![0]) (γ := ![![0]]) rfl rfl rfl ![0] ![Z] hu hv)
      (PPE.view_eq (self := zeroPPE 0) (m := 1) (n := 1) (by omega) (by omega) (a := ![0]) (b := ![0]) (γ := ![![0]]) rfl rfl rfl ![0] ![0] hu hv)
      (h (zeroPPE 0) [0] [Z] [0] (by simp) (by simp) (hdims _) rfl (zeroPPE_holds.mpr rfl) (zeroPPE_holds.mpr rfl) (fun _ => forwards) (fun _ => forwards))
    refine (group_dichotomy he.cyclic2 (by rw [hv]; simp) : BindingGroup F crs.v ∨ EquivocalGroup F crs.v).resolve_left ?_
    rw [hv]
    exact not_binding_of_group hZ (by simpa [i1_apply, i2_apply] using h2 0)
  · intro e1 equ x y y' hx hy hd hly h h' sch sch'
    have hm := List.length_pos_iff.mpr hx
    have hn := List.length_pos_iff.mpr hy
    obtain ⟨m, hxm⟩ : ∃ m, x.length = m := ⟨_, rfl⟩
    obtain ⟨n, hyn⟩ : ∃ n, y.length = n := ⟨_, rfl⟩
    rw [hxm] at hm hd
    rw [hyn] at hn hd hly
    rw [hxm, hyn]
    obtain ⟨a, ha⟩ := exists_ofFn equ.a_consts hd.a
    obtain ⟨b, hb⟩ := exists_ofFn equ.b_consts hd.b
    obtain ⟨γ, hγ⟩ := rect_iff.mp (⟨hd.rows, hd.cols⟩ : Rect _ _ equ.gamma)
    obtain ⟨x, rfl⟩ := exists_ofFn x hxm
    obtain ⟨y, rfl⟩ := exists_ofFn y hyn
    obtain ⟨y', rfl⟩ := exists_ofFn y' hly
    refine sameViews_of (p := 2) (q := 2) (by omega) (PPE.view_eq hm hn ha hb hγ x y hu hv) (PPE.view_eq hm hn ha hb hγ x y' hu hv) ?_
    rw [PPE.Holds, ha, hb, hγ, equLhs_ofFn] at h h'
    obtain ⟨Z, hZ⟩ := exists_ne (0 : G2)
    choose κ hκ using fun i => he.cyclic2 Z hZ (y' i - y i)
    obtain ⟨r, hr⟩ := EquivocalGroup.vec (hv ▸ e1) Z
    have hκ' : ∀ i, y' i = y i + κ i • Z := fun i => by rw [← hκ]; abel
    refine viewFn_equiv_right _ _ r _ hr _ _ _ _ _ γ κ (fun i => by rw [hκ', map_add, map_smul]; rfl) ?_
    have hh := h'.trans h.symm
    have h0 := diff_right e (W := Z) hκ' hh
    exact map_right i1 ((he.nondeg _ _ h0).resolve_right hZ)

/-- C95: MSMEG1 proofs are perfectly witness indistinguishable exactly when the commitments on both sides are
equivocal. -/
theorem C95_msmeg1 [Nontrivial G1] (he : PrimeGroups e) (hu : crs.u.length = 2) (hv : crs.v.length = 2) :
    (∀ (equ : MSMEG1 F G1) (x x' : List G1) (y y' : List F), x ≠ [] → y ≠ [] → equ.Dims x.length y.length →
      x'.length = x.length → y'.length = y.length → equ.Holds x y → equ.Holds x' y' → ∀ sch sch' : Nat → Scheduler,
      SameViews (N := 2 * x.length + y.length + 2)
        (viewOn fun rng => equ.commitAndProve sch x y crs rng) (viewOn fun rng => equ.commitAndProve sch' x' y' crs rng)) ↔
      EquivocalGroup F crs.u ∧ EquivocalScalar F crs.v crs.g2_gen := by
  obtain ⟨u0, u1, hu⟩ := two_of_length hu
  obtain ⟨v0, v1, hv⟩ := two_of_length hv
  constructor
  · intro h
    have hdims : ∀ t, (zeroMSMEG1 t : MSMEG1 F G1).Dims 1 1 := fun t => by constructor <;> simp [zeroMSMEG1]
    constructor
    · obtain ⟨Z, hZ⟩ := exists_ne (0 : G1)
      obtain ⟨R, R', S, S', h1, h2⟩ := sameViews_coms (m := 1) (n := 1) (p := 2) (q := 1) (by rfl)
        (MSMEG1.view_eq (self := zeroMSMEG1 0) (m := 1) (n := 1) (by omega) (by omega) (a := ![0]) (b := ![0]) (γ := ![![0]]) rfl rfl rfl ![Z] ![0] hu hv)
        (MSMEG1.view_eq (self := zeroMSMEG1 0) (m := 1) (n := 1) (by omega) (by omega) (a := ![0]) (b := ![0]) (γ := ![![0]]) rfl rfl rfl ![0] ![0] hu hv)
        (h (zeroMSMEG1 0) [Z] [0] [0] [0] (by simp) (by simp) (hdims _) rfl rfl (zeroMSMEG1_holds.mpr rfl) (zeroMSMEG1_holds.mpr rfl) (fun _ => forwards) (fun _ => forwards))
      refine (group_dichotomy he.cyclic1 (by rw [hu]; simp) : BindingGroup F crs.u ∨ EquivocalGroup F crs.u).resolve_left ?_
      rw [hu]
      exact not_binding_of_group hZ (by simpa [i1_apply, i2_apply] using h1 0)
    · obtain ⟨R, R', S, S', h1, h2⟩ := sameViews_coms (m := 1) (n := 1) (p := 2) (q := 1) (by rfl)
        (MSMEG1.view_eq (self := zeroMSMEG1 0) (m := 1) (n := 1) (by omega) (by omega) (a := ![0]) (b := ![0]) (γ := ![![0]]) rfl rfl rfl ![0] ![1] hu hv)
        (MSMEG1.view_eq (self := zeroMSMEG1 0) (m := 1) (n := 1) (by omega) (by omega) (a := ![0]) (b := ![0]) (γ := ![![0]]) rfl rfl rfl ![0] ![0] hu hv)
        (h (zeroMSMEG1 0) [0] [0] [1] [0] (by simp) (by simp) (hdims _) rfl rfl (zeroMSMEG1_holds.mpr rfl) (zeroMSMEG1_holds.mpr rfl) (fun _ => forwards) (fun _ => forwards))
      refine (scalar_dichotomy _ (by rw [hv]; simp) : BindingScalar F crs.v crs.g2_gen ∨ EquivocalScalar F crs.v crs.g2_gen).resolve_left ?_
      rw [hv]
      exact not_binding_of_scalar (by simpa using h2 0)
  · rintro ⟨e1, e2⟩ equ x x' y y' hx hy hd hlx hly h h' sch sch'
    have hm := List.length_pos_iff.mpr hx
    have hn := List.length_pos_iff.mpr hy
    obtain ⟨m, hxm⟩ : ∃ m, x.length = m := ⟨_, rfl⟩
    obtain ⟨n, hyn⟩ : ∃ n, y.length = n := ⟨_, rfl⟩
    rw [hxm] at hm hd hlx
    rw [hyn] at hn hd hly
    rw [hxm, hyn]
    obtain ⟨a, ha⟩ := exists_ofFn equ.a_consts hd.a
    obtain ⟨b, hb⟩ := exists_ofFn equ.b_consts hd.b
    obtain ⟨γ, hγ⟩ := rect_iff.mp (⟨hd.rows, hd.cols⟩ : Rect _ _ equ.gamma)
    obtain ⟨x, rfl⟩ := exists_ofFn x hxm
    obtain ⟨y, rfl⟩ := exists_ofFn y hyn
    obtain ⟨x', rfl⟩ := exists_ofFn x' hlx
    obtain ⟨y', rfl⟩ := exists_ofFn y' hly
    refine sameViews_of (p := 2) (q := 1) (by omega) (MSMEG1.view_eq hm hn ha hb hγ x y hu hv) (MSMEG1.view_eq hm hn ha hb hγ x' y' hu hv) ?_
    rw [MSMEG1.Holds, ha, hb, hγ, equLhs_ofFn] at h h'
    obtain ⟨Z, hZ⟩ := exists_ne (0 : G1)
    choose cx hcx using fun i => he.cyclic1 Z hZ (x i)
    choose cx' hcx' using fun i => he.cyclic1 Z hZ (x' i)
    obtain ⟨r, hr⟩ := EquivocalGroup.vec (hu ▸ e1) Z
    have i1c : ∀ k : F, i1 (F := F) (k • Z) = k • (⟨0, Z⟩ : Com G1) := fun k => by rw [map_smul]; rfl
    choose ca hca using fun i => he.cyclic1 Z hZ (a i)
    obtain ⟨s, hs⟩ := EquivocalScalar.vec (hv ▸ e2)
    simp only [hca, hcx, hcx'] at h h' ⊢
    simp only [i1c]
    refine viewFn_equiv_any _ _ r s _ _ hr hs ca cx cx' b y y' γ ?_
    have hne : Z ≠ 0 := hZ
    refine smul_left_injective F hne ?_
    have hh := h.trans h'.symm
    simp only [map_smul, LinearMap.smul_apply, smul_smul] at hh
    simp only [add_smul, Finset.sum_smul]
    convert hh using 3 <;> first | (refine Finset.sum_congr rfl fun _ _ => ?_; first | rfl | (congr 1; ring) | (refine Finset.sum_congr rfl fun _ _ => ?_; first | rfl | (congr 1; ring))) | rfl

/-- C96: what a MSMEG1 proof publishes does not depend on which `xvars` solve the equation, for given `yvars`,
exactly when the commitments to `xvars` are equivocal. -/
theorem C96_msmeg1_left [Nontrivial G1] (he : PrimeGroups e) (hu : crs.u.length = 2) (hv : crs.v.length = 2) :
    (∀ (equ : MSMEG1 F G1) (x x' : List G1) (y : List F), x ≠ [] → y ≠ [] → equ.Dims x.length y.length →
      x'.length = x.length → equ.Holds x y → equ.Holds x' y → ∀ sch sch' : Nat → Scheduler,
      SameViews (N := 2 * x.length + y.length + 2)
        (viewOn fun rng => equ.commitAndProve sch x y crs rng) (viewOn fun rng => equ.commitAndProve sch' x' y crs rng)) ↔
      EquivocalGroup F crs.u := by
  obtain ⟨u0, u1, hu⟩ := two_of_length hu
  obtain ⟨v0, v1, hv⟩ := two_of_length hv
  constructor
  · intro h
    have hdims : ∀ t, (zeroMSMEG1 t : MSMEG1 F G1).Dims 1 1 := fun t => by constructor <;> simp [zeroMSMEG1]
    obtain ⟨Z, hZ⟩ := exists_ne (0 : G1)
    obtain ⟨R, R', S, S', h1, h2⟩ := sameViews_coms (m := 1) (n := 1) (p := 2) (q := 1) (by rfl)
      (MSMEG1.view_eq (self := zeroMSMEG1 0) (m := 1) (n := 1) (by omega) (by omega) (a := ![0]) (b := ![0]) (γ := ![![0]]) rfl rfl rfl ![Z] ![0] hu hv)
      (MSMEG1.view_eq (self := zeroMSMEG1 0) (m := 1) (n := 1) (by omega) (by omega) (a := ![0]) (b := ![0]) (γ := ![![0]]) rfl rfl rfl ![0] ![0] hu hv)
      (h (zeroMSMEG1 0) [Z] [0] [0] (by simp) (by simp) (hdims _) rfl (zeroMSMEG1_holds.mpr rfl) (zeroMSMEG1_holds.mpr rfl) (fun _ => forwards) (fun _ => forwards))
    refine (group_dichotomy he.cyclic1 (by rw [hu]; simp) : BindingGroup F crs.u ∨ EquivocalGroup F crs.u).resolve_left ?_
    rw [hu]
    exact not_binding_of_group hZ (by simpa [i1_apply, i2_apply] using h1 0)
  · intro e1 equ x x' y hx hy hd hlx h h' sch sch'
    have hm := List.length_pos_iff.mpr hx
    have hn := List.length_pos_iff.mpr hy
    obtain ⟨m, hxm⟩ : ∃ m, x.length = m := ⟨_, rfl⟩
    obtain ⟨n, hyn⟩ : ∃ n, y.length = n := ⟨_, rfl⟩
    rw [hxm] at hm hd hlx
    rw [hyn] at hn hd
    rw [hxm, hyn]
    obtain ⟨a, ha⟩ := exists_ofFn equ.a_consts hd.a
    obtain ⟨b, hb⟩ := exists_ofFn equ.b_consts hd.b
    obtain ⟨γ, hγ⟩ := rect_iff.mp (⟨hd.rows, hd.cols⟩ : Rect _ _ equ.gamma)
    obtain ⟨x, rfl⟩ := exists_ofFn x hxm
    obtain ⟨y, rfl⟩ := exists_ofFn y hyn
    obtain ⟨x', rfl⟩ := exists_ofFn x' hlx
    refine sameViews_of (p := 2) (q := 1) (by omega) (MSMEG1.view_eq hm hn ha hb hγ x y hu hv) (MSMEG1.view_eq hm hn ha hb hγ x' y hu hv) ?_
    rw [MSMEG1.Holds, ha, hb, hγ, equLhs_ofFn] at h h'
    obtain ⟨Z, hZ⟩ := exists_ne (0 : G1)
    choose κ hκ using fun i => he.cyclic1 Z hZ (x' i - x i)
    obtain ⟨r, hr⟩ := EquivocalGroup.vec (hu ▸ e1) Z
    have hκ' : ∀ i, x' i = x i + κ i • Z := fun i => by rw [← hκ]; abel
    refine viewFn_equiv_left _ _ r _ hr _ _ _ _ _ γ κ (fun i => by rw [hκ', map_add, map_smul]; rfl) ?_
    have hh := h'.trans h.symm
    have h0 := diff_left (LinearMap.lsmul F G1).flip (Z := Z) hκ' hh
    have h0 := (smul_eq_zero.mp h0).resolve_right hZ
    simpa only [LinearMap.toSpanSingleton_apply] using map_left (LinearMap.toSpanSingleton F _ (v1 + ⟨0, crs.g2_gen⟩)) h0

/-- C96: what a MSMEG1 proof publishes does not depend on which `yvars` solve the equation, for given `xvars`,
exactly when the commitments to `yvars` are equivocal. -/
theorem C96_msmeg1_right (hu : crs.u.length = 2) (hv : crs.v.length = 2) :
    (∀ (equ : MSMEG1 F G1) (x : List G1) (y y' : List F), x ≠ [] → y ≠ [] → equ.Dims x.length y.length →
      y'.length = y.length → equ.Holds x y → equ.Holds x y' → ∀ sch sch' : Nat → Scheduler,
      SameViews (N := 2 * x.length + y.length + 2)
        (viewOn fun rng => equ.commitAndProve sch x y crs rng) (viewOn fun rng => equ.commitAndProve sch' x y' crs rng)) ↔
      EquivocalScalar F crs.v crs.g2_gen := by
  obtain ⟨u0, u1, hu⟩ := two_of_length hu
  obtain ⟨v0, v1, hv⟩ := two_of_length hv
  constructor
  · intro h
    have hdims : ∀ t, (zeroMSMEG1 t : MSMEG1 F G1).Dims 1 1 := fun t => by constructor <;> simp [zeroMSMEG1]
    obtain ⟨R, R', S, S', h1, h2⟩ := sameViews_coms (m := 1) (n := 1) (p := 2) (q := 1) (by rfl)
      (MSMEG1.view_eq (self := zeroMSMEG1 0) (m := 1) (n := 1) (by omega) (by omega) (a := ![0]) (b := ![0]) (γ := ![![0]]) rfl rfl rfl ![0] ![1] hu hv)
      (MSMEG1.view_eq (self := zeroMSMEG1 0) (m := 1) (n := 1) (by omega) (by omega) (a := ![0]) (b := ![0]) (γ := ![![0]]) rfl rfl rfl ![0] ![0] hu hv)
      (h (zeroMSMEG1 0) [0] [1] [0] (by simp) (by simp) (hdims _) rfl (zeroMSMEG1_holds.mpr rfl) (zeroMSMEG1_holds.mpr rfl) (fun _ => forwards) (fun _ => forwards))
    refine (scalar_dichotomy _ (by rw [hv]; simp) : BindingScalar F crs.v crs.g2_gen ∨ EquivocalScalar F crs.v crs.g2_gen).resolve_left ?_
    rw [hv]
    exact not_binding_of_scalar (by simpa using h2 0)
  · intro e1 equ x y y' hx hy hd hly h h' sch sch'
    have hm := List.length_pos_iff.mpr hx
    have hn := List.length_pos_iff.mpr hy
    obtain ⟨m, hxm⟩ : ∃ m, x.length = m := ⟨_, rfl⟩
    obtain ⟨n, hyn⟩ : ∃ n, y.length = n := ⟨_, rfl⟩
    rw [hxm] at hm hd
    rw [hyn] at hn hd hly
    rw [hxm, hyn]
    obtain ⟨a, ha⟩ := exists_ofFn equ.a_consts hd.a
    obtain ⟨b, hb⟩ := exists_ofFn equ.b_consts hd.b
    obtain ⟨γ, hγ⟩ := rect_iff.mp (⟨hd.rows, hd.cols⟩ : Rect _ _ equ.gamma)
    obtain ⟨x, rfl⟩ := exists_ofFn x hxm
    obtain ⟨y, rfl⟩ := exists_ofFn y hyn
    obtain ⟨y', rfl⟩ := exists_ofFn y' hly
    refine sameViews_of (p := 2) (q := 1) (by omega) (MSMEG1.view_eq hm hn ha hb hγ x y hu hv) (MSMEG1.view_eq hm hn ha hb hγ x y' hu hv) ?_
    rw [MSMEG1.Holds, ha, hb, hγ, equLhs_ofFn] at h h'
    obtain ⟨r, hr⟩ := EquivocalScalar.vec (hv ▸ e1)
    obtain ⟨κ, hκ⟩ : ∃ κ : Fin _ → F, κ = fun i => y' i - y i := ⟨_, rfl⟩
    have hκ' : ∀ i, y' i = y i + κ i := fun i => by rw [hκ]; ring
    refine viewFn_equiv_right _ _ r _ hr _ _ _ _ _ γ κ (fun i => by rw [hκ', add_smul]) ?_
    have hh := h'.trans h.symm
    have h0 := diff_right (LinearMap.lsmul F G1).flip (W := (1 : F)) (fun i => by rw [hκ', smul_eq_mul, mul_one]) hh
    have h0 := (smul_eq_zero.mp h0).resolve_left one_ne_zero
    exact map_right i1 h0

/-- C95: MSMEG2 proofs are perfectly witness indistinguishable exactly when the commitments on both sides are
equivocal. -/
theorem C95_msmeg2 [Nontrivial G2] (he : PrimeGroups e) (hu : crs.u.length = 2) (hv : crs.v.length = 2) :
    (∀ (equ : MSMEG2 F G2) (x x' : List F) (y y' : List G2), x ≠ [] → y ≠ [] → equ.Dims x.length y.length →
      x'.length = x.length → y'.length = y.length → equ.Holds x y → equ.Holds x' y' → ∀ sch sch' : Nat → Scheduler,
      SameViews (N := x.length + 2 * y.length + 2)
        (viewOn fun rng => equ.commitAndProve sch x y crs rng) (viewOn fun rng => equ.commitAndProve sch' x' y' crs rng)) ↔
      EquivocalScalar F crs.u crs.g1_gen ∧ EquivocalGroup F crs.v := by
  obtain ⟨u0, u1, hu⟩ := two_of_length hu
  obtain ⟨v0, v1, hv⟩ := two_of_length hv
  constructor
  · intro h
    have hdims : ∀ t, (zeroMSMEG2 t : MSMEG2 F G2).Dims 1 1 := fun t => by constructor <;> simp [zeroMSMEG2]
    constructor
    · obtain ⟨R, R', S, S', h1, h2⟩ := sameViews_coms (m := 1) (n := 1) (p := 1) (q := 2) (by rfl)
        (MSMEG2.view_eq (self := zeroMSMEG2 0) (m := 1) (n := 1) (by omega) (by omega) (a := ![0]) (b := ![0]) (γ := ![![0]]) rfl rfl rfl ![1] ![0] hu hv)
        (MSMEG2.view_eq (self := zeroMSMEG2 0) (m := 1) (n := 1) (by omega) (by omega) (a := ![0]) (b := ![0]) (γ := ![![0]]) rfl rfl rfl ![0] ![0] hu hv)
        (h (zeroMSMEG2 0) [1] [0] [0] [0] (by simp) (by simp) (hdims _) rfl rfl (zeroMSMEG2_holds.mpr rfl) (zeroMSMEG2_holds.mpr rfl) (fun _ => forwards) (fun _ => forwards))
      refine (scalar_dichotomy _ (by rw [hu]; simp) : BindingScalar F crs.u crs.g1_gen ∨ EquivocalScalar F crs.u crs.g1_gen).resolve_left ?_
      rw [hu]
      exact not_binding_of_scalar (by simpa using h1 0)
    · obtain ⟨Z, hZ⟩ := exists_ne (0 : G2)
      obtain ⟨R, R', S, S', h1, h2⟩ := sameViews_coms (m := 1) (n := 1) (p := 1) (q := 2) (by rfl)
        (MSMEG2.view_eq (self := zeroMSMEG2 0) (m := 1) (n := 1) (by omega) (by omega) (a := ![0]) (b := ![0]) (γ := ![![0]]) rfl rfl rfl ![0] ![Z] hu hv)
        (MSMEG2.view_eq (self := zeroMSMEG2 0) (m := 1) (n := 1) (by omega) (by omega) (a := ![0]) (b := ![0]) (γ := ![![0]]) rfl rfl rfl ![0] ![0] hu hv)
        (h (zeroMSMEG2 0) [0] [0] [Z] [0] (by simp) (by simp) (hdims _) rfl rfl (zeroMSMEG2_holds.mpr rfl) (zeroMSMEG2_holds.mpr rfl) (fun _ => forwards) (fun _ => forwards))
      refine (group_dichotomy he.cyclic2 (by rw [hv]; simp) : BindingGroup F crs.v ∨ EquivocalGroup F crs.v).resolve_left ?_
      rw [hv]
      exact not_binding_of_group hZ (by simpa [i1_apply, i2_apply] using h2 0)
  · rintro ⟨e1, e2⟩ equ x x' y y' hx hy hd hlx hly h h' sch sch'
    have hm := List.length_pos_iff.mpr hx
    have hn := List.length_pos_iff.mpr hy
    obtain ⟨m, hxm⟩ : ∃ m, x.length = m := ⟨_, rfl⟩
    obtain ⟨n, hyn⟩ : ∃ n, y.length = n := ⟨_, rfl⟩
    rw [hxm] at hm hd hlx
    rw [hyn] at hn hd hly
    rw [hxm, hyn]
    obtain ⟨a, ha⟩ := exists_ofFn equ.a_consts hd.a
    obtain ⟨b, hb⟩ := exists_ofFn equ.b_consts hd.b
    obtain ⟨γ, hγ⟩ := rect_iff.mp (⟨hd.rows, hd.cols⟩ : Rect _ _ equ.gamma)
    obtain ⟨x, rfl⟩ := exists_ofFn x hxm
    obtain ⟨y, rfl⟩ := exists_ofFn y hyn
    obtain ⟨x', rfl⟩ := exists_ofFn x' hlx
    obtain ⟨y', rfl⟩ := exists_ofFn y' hly
    refine sameViews_of (p := 1) (q := 2) (by omega) (MSMEG2.view_eq hm hn ha hb hγ x y hu hv) (MSMEG2.view_eq hm hn ha hb hγ x' y' hu hv) ?_
    rw [MSMEG2.Holds, ha, hb, hγ, equLhs_ofFn] at h h'
    obtain ⟨r, hr⟩ := EquivocalScalar.vec (hu ▸ e1)
    obtain ⟨W, hW⟩ := exists_ne (0 : G2)
    choose cy hcy using fun i => he.cyclic2 W hW (y i)
    choose cy' hcy' using fun i => he.cyclic2 W hW (y' i)
    choose cb hcb using fun i => he.cyclic2 W hW (b i)
    obtain ⟨s, hs⟩ := EquivocalGroup.vec (hv ▸ e2) W
    have i2c : ∀ k : F, i2 (F := F) (k • W) = k • (⟨0, W⟩ : Com G2) := fun k => by rw [map_smul]; rfl
    simp only [hcb, hcy, hcy'] at h h' ⊢
    simp only [i2c]
    refine viewFn_equiv_any _ _ r s _ _ hr hs a x x' cb cy cy' γ ?_
    have hne : W ≠ 0 := hW
    refine smul_left_injective F hne ?_
    have hh := h.trans h'.symm
    simp only [map_smul, LinearMap.smul_apply, smul_smul] at hh
    simp only [add_smul, Finset.sum_smul]
    exact hh

/-- C96: what a MSMEG2 proof publishes does not depend on which `xvars` solve the equation, for given `yvars`,
exactly when the commitments to `xvars` are equivocal. -/
theorem C96_msmeg2_left (hu : crs.u.length = 2) (hv : crs.v.length = 2) :
    (∀ (equ : MSMEG2 F G2) (x x' : List F) (y : List G2), x ≠ [] → y ≠ [] → equ.Dims x.length y.length →
      x'.length = x.length → equ.Holds x y → equ.Holds x' y → ∀ sch sch' : Nat → Scheduler,
      SameViews (N := x.length + 2 * y.length + 2)
        (viewOn fun rng => equ.commitAndProve sch x y crs rng) (viewOn fun rng => equ.commitAndProve sch' x' y crs rng)) ↔
      EquivocalScalar F crs.u crs.g1_gen := by
  obtain ⟨u0, u1, hu⟩ := two_of_length hu
  obtain ⟨v0, v1, hv⟩ := two_of_length hv
  constructor
  · intro h
    have hdims : ∀ t, (zeroMSMEG2 t : MSMEG2 F G2).Dims 1 1 := fun t => by constructor <;> simp [zeroMSMEG2]
    obtain ⟨R, R', S, S', h1, h2⟩ := sameViews_coms (m := 1) (n := 1) (p := 1) (q := 2) (by rfl)
      (MSMEG2.view_eq (self := zeroMSMEG2 0) (m := 1) (n := 1) (by omega) (by omega) (a := ![0]) (b := ![0]) (γ := ![![0]]) rfl rfl rfl ![1] ![0] hu hv)
      (MSMEG2.view_eq (self := zeroMSMEG2 0) (m := 1) (n := 1) (by omega) (by omega) (a := ![0]) (b := ![0]) (γ := ![![0]]) rfl rfl rfl ![0] ![0] hu hv)
      (h (zeroMSMEG2 0) [1] [0] [0] (by simp) (by simp) (hdims _) rfl (zeroMSMEG2_holds.mpr rfl) (zeroMSMEG2_holds.mpr rfl) (fun _ => forwards) (fun _ => forwards))
    refine (scalar_dichotomy _ (by rw [hu]; simp) : BindingScalar F crs.u crs.g1_gen ∨ EquivocalScalar F crs.u crs.g1_gen).resolve_left ?_
    rw [hu]
    exact not_binding_of_scalar (by simpa using h1 0)
  · intro e1 equ x x' y hx hy hd hlx h h' sch sch'
    have hm := List.length_pos_iff.mpr hx
    have hn := List.length_pos_iff.mpr hy
    obtain ⟨m, hxm⟩ : ∃ m, x.length = m := ⟨_, rfl⟩
    obtain ⟨n, hyn⟩ : ∃ n, y.length = n := ⟨_, rfl⟩
    rw [hxm] at hm hd hlx
    rw [hyn] at hn hd
    rw [hxm, hyn]
    obtain ⟨a, ha⟩ := exists_ofFn equ.a_consts hd.a
    obtain ⟨b, hb⟩ := exists_ofFn equ.b_consts hd.b
    obtain ⟨γ, hγ⟩ := rect_iff.mp (⟨hd.rows, hd.cols⟩ : Rect _ _ equ.gamma)
    obtain ⟨x, rfl⟩ := exists_ofFn x hxm
    obtain ⟨y, rfl⟩ := exists_ofFn y hyn
    obtain ⟨x', rfl⟩ := exists_ofFn x' hlx
    refine sameViews_of (p := 1) (q := 2) (by omega) (MSMEG2.view_eq hm hn ha hb hγ x y hu hv) (MSMEG2.view_eq hm hn ha hb hγ x' y hu hv) ?_
    rw [MSMEG2.Holds, ha, hb, hγ, equLhs_ofFn] at h h'
    obtain ⟨r, hr⟩ := EquivocalScalar.vec (hu ▸ e1)
    obtain ⟨κ, hκ⟩ : ∃ κ : Fin _ → F, κ = fun i => x' i - x i := ⟨_, rfl⟩
    have hκ' : ∀ i, x' i = x i + κ i := fun i => by rw [hκ]; ring
    refine viewFn_equiv_left _ _ r _ hr _ _ _ _ _ γ κ (fun i => by rw [hκ', add_smul]) ?_
    have hh := h'.trans h.symm
    have h0 := diff_left (LinearMap.lsmul F G2) (Z := (1 : F)) (fun i => by rw [hκ', smul_eq_mul, mul_one]) hh
    have h0 := (smul_eq_zero.mp h0).resolve_left one_ne_zero
    exact map_left i2 h0

/-- C96: what a MSMEG2 proof publishes does not depend on which `yvars` solve the equation, for given `xvars`,
exactly when the commitments to `yvars` are equivocal. -/
theorem C96_msmeg2_right [Nontrivial G2] (he : PrimeGroups e) (hu : crs.u.length = 2) (hv : crs.v.length = 2) :
    (∀ (equ : MSMEG2 F G2) (x : List F) (y y' : List G2), x ≠ [] → y ≠ [] → equ.Dims x.length y.length →
      y'.length = y.length → equ.Holds x y → equ.Holds x y' → ∀ sch sch' : Nat → Scheduler,
      SameViews (N := x.length + 2 * y.length + 2)
        (viewOn fun rng => equ.commitAndProve sch x y crs rng) (viewOn fun rng => equ.commitAndProve sch' x y' crs rng)) ↔
      EquivocalGroup F crs.v := by
  obtain ⟨u0, u1, hu⟩ := two_of_length hu
  obtain ⟨v0, v1, hv⟩ := two_of_length hv
  constructor
  · intro h
    have hdims : ∀ t, (zeroMSMEG2 t : MSMEG2 F G2).Dims 1 1 := fun t => by constructor <;> simp [zeroMSMEG2]
    obtain ⟨Z, hZ⟩ := exists_ne (0 : G2)
    obtain ⟨R, R', S, S', h1, h2⟩ := sameViews_coms (m := 1) (n := 1) (p := 1) (q := 2) (by rfl)
      (MSMEG2.view_eq (self := zeroMSMEG2 0) (m := 1) (n := 1) (by omega) (by omega) (a := ![0]) (b := ![0]) (γ := ![![0]]) rfl rfl rfl ![0] ![Z] hu hv)
      (MSMEG2.view_eq (self := zeroMSMEG2 0) (m := 1) (n := 1) (by omega) (by omega) (a := ![0]) (b := ![0]) (γ := ![![0]]) rfl rfl rfl ![0] ![0] hu hv)
      (h (zeroMSMEG2 0) [0] [Z] [0] (by simp) (by simp) (hdims _) rfl (zeroMSMEG2_holds.mpr rfl) (zeroMSMEG2_holds.mpr rfl) (fun _ => forwards) (fun _ => forwards))
    refine (group_dichotomy he.cyclic2 (by rw [hv]; simp) : BindingGroup F crs.v ∨ EquivocalGroup F crs.v).resolve_left ?_
    rw [hv]
    exact not_binding_of_group hZ (by simpa [i1_apply, i2_apply] using h2 0)
  · intro e1 equ x y y' hx hy hd hly h h' sch sch'
    have hm := List.length_pos_iff.mpr hx
    have hn := List.length_pos_iff.mpr hy
    obtain ⟨m, hxm⟩ : ∃ m, x.length = m := ⟨_, rfl⟩
    obtain ⟨n, hyn⟩ : ∃ n, y.length = n := ⟨_, rfl⟩
    rw [hxm] at hm hd
    rw [hyn] at hn hd hly
    rw [hxm, hyn]
    obtain ⟨a, ha⟩ := exists_ofFn equ.a_consts hd.a
    obtain ⟨b, hb⟩ := exists_ofFn equ.b_consts hd.b
    obtain ⟨γ, hγ⟩ := rect_iff.mp (⟨hd.rows, hd.cols⟩ : Rect _ _ equ.gamma)
    obtain ⟨x, rfl⟩ := exists_ofFn x hxm
    obtain ⟨y, rfl⟩ := exists_ofFn y hyn
    obtain ⟨y', rfl⟩ := exists_ofFn y' hly
    refine sameViews_of (p := 1) (q := 2) (by omega) (MSMEG2.view_eq hm hn ha hb hγ x y hu hv) (MSMEG2.view_eq hm hn ha hb hγ x y' hu hv) ?_
    rw [MSMEG2.Holds, ha, hb, hγ, equLhs_ofFn] at h h'
    obtain ⟨Z, hZ⟩ := exists_ne (0 : G2)
    choose κ hκ using fun i => he.cyclic2 Z hZ (y' i - y i)
    obtain ⟨r, hr⟩ := EquivocalGroup.vec (hv ▸ e1) Z
    have hκ' : ∀ i, y' i = y i + κ i • Z := fun i => by rw [← hκ]; abel
    refine viewFn_equiv_right _ _ r _ hr _ _ _ _ _ γ κ (fun i => by rw [hκ', map_add, map_smul]; rfl) ?_
    have hh := h'.trans h.symm
    have h0 := diff_right (LinearMap.lsmul F G2) (W := Z) hκ' hh
    have h0 := (smul_eq_zero.mp h0).resolve_right hZ
    simpa only [LinearMap.toSpanSingleton_apply] using map_right (LinearMap.toSpanSingleton F _ (u1 + ⟨0, crs.g1_gen⟩)) h0

/-- C95: quadratic proofs are perfectly witness indistinguishable exactly when the commitments on both sides are
equivocal. -/
theorem C95_quad (hu : crs.u.length = 2) (hv : crs.v.length = 2) :
    (∀ (equ : QuadEqu F) (x x' : List F) (y y' : List F), x ≠ [] → y ≠ [] → equ.Dims x.length y.length →
      x'.length = x.length → y'.length = y.length → equ.Holds x y → equ.Holds x' y' → ∀ sch sch' : Nat → Scheduler,
      SameViews (N := x.length + y.length + 1)
        (viewOn fun rng => equ.commitAndProve sch x y crs rng) (viewOn fun rng => equ.commitAndProve sch' x' y' crs rng)) ↔
      EquivocalScalar F crs.u crs.g1_gen ∧ EquivocalScalar F crs.v crs.g2_gen := by
  obtain ⟨u0, u1, hu⟩ := two_of_length hu
  obtain ⟨v0, v1, hv⟩ := two_of_length hv
  constructor
  · intro h
    have hdims : ∀ t, (zeroQuad t : QuadEqu F).Dims 1 1 := fun t => by constructor <;> simp [zeroQuad]
    constructor
    · obtain ⟨R, R', S, S', h1, h2⟩ := sameViews_coms (m := 1) (n := 1) (p := 1) (q := 1) (by rfl)
        (QuadEqu.view_eq (self := zeroQuad 0) (m := 1) (n := 1) (by omega) (by omega) (a := ![0]) (b := ![0]) (γ := ![![0]]) rfl rfl rfl ![1] ![0] hu hv)
        (QuadEqu.view_eq (self := zeroQuad 0) (m := 1) (n := 1) (by omega) (by omega) (a := ![0]) (b := ![0]) (γ := ![![0]]) rfl rfl rfl ![0] ![0] hu hv)
        (h (zeroQuad 0) [1] [0] [0] [0] (by simp) (by simp) (hdims _) rfl rfl (zeroQuad_holds.mpr rfl) (zeroQuad_holds.mpr rfl) (fun _ => forwards) (fun _ => forwards))
      refine (scalar_dichotomy _ (by rw [hu]; simp) : BindingScalar F crs.u crs.g1_gen ∨ EquivocalScalar F crs.u crs.g1_gen).resolve_left ?_
      rw [hu]
      exact not_binding_of_scalar (by simpa using h1 0)
    · obtain ⟨R, R', S, S', h1, h2⟩ := sameViews_coms (m := 1) (n := 1) (p := 1) (q := 1) (by rfl)
        (QuadEqu.view_eq (self := zeroQuad 0) (m := 1) (n := 1) (by omega) (by omega) (a := ![0]) (b := ![0]) (γ := ![![0]]) rfl rfl rfl ![0] ![1] hu hv)
        (QuadEqu.view_eq (self := zeroQuad 0) (m := 1) (n := 1) (by omega) (by omega) (a := ![0]) (b := ![0]) (γ := ![![0]]) rfl rfl rfl ![0] ![0] hu hv)
        (h (zeroQuad 0) [0] [0] [1] [0] (by simp) (by simp) (hdims _) rfl rfl (zeroQuad_holds.mpr rfl) (zeroQuad_holds.mpr rfl) (fun _ => forwards) (fun _ => forwards))
      refine (scalar_dichotomy _ (by rw [hv]; simp) : BindingScalar F crs.v crs.g2_gen ∨ EquivocalScalar F crs.v crs.g2_gen).resolve_left ?_
      rw [hv]
      exact not_binding_of_scalar (by simpa using h2 0)
  · rintro ⟨e1, e2⟩ equ x x' y y' hx hy hd hlx hly h h' sch sch'
    have hm := List.length_pos_iff.mpr hx
    have hn := List.length_pos_iff.mpr hy
    obtain ⟨m, hxm⟩ : ∃ m, x.length = m := ⟨_, rfl⟩
    obtain ⟨n, hyn⟩ : ∃ n, y.length = n := ⟨_, rfl⟩
    rw [hxm] at hm hd hlx
    rw [hyn] at hn hd hly
    rw [hxm, hyn]
    obtain ⟨a, ha⟩ := exists_ofFn equ.a_consts hd.a
    obtain ⟨b, hb⟩ := exists_ofFn equ.b_consts hd.b
    obtain ⟨γ, hγ⟩ := rect_iff.mp (⟨hd.rows, hd.cols⟩ : Rect _ _ equ.gamma)
    obtain ⟨x, rfl⟩ := exists_ofFn x hxm
    obtain ⟨y, rfl⟩ := exists_ofFn y hyn
    obtain ⟨x', rfl⟩ := exists_ofFn x' hlx
    obtain ⟨y', rfl⟩ := exists_ofFn y' hly
    refine sameViews_of (p := 1) (q := 1) (by omega) (QuadEqu.view_eq hm hn ha hb hγ x y hu hv) (QuadEqu.view_eq hm hn ha hb hγ x' y' hu hv) ?_
    rw [QuadEqu.Holds, ha, hb, hγ, equLhs_ofFn] at h h'
    obtain ⟨r, hr⟩ := EquivocalScalar.vec (hu ▸ e1)
    obtain ⟨s, hs⟩ := EquivocalScalar.vec (hv ▸ e2)
    refine viewFn_equiv_any _ _ r s _ _ hr hs a x x' b y y' γ ?_
    simpa only [smul_eq_mul] using h.trans h'.symm

/-- C96: what a quadratic proof publishes does not depend on which `xvars` solve the equation, for given `yvars`,
exactly when the commitments to `xvars` are equivocal. -/
theorem C96_quad_left (hu : crs.u.length = 2) (hv : crs.v.length = 2) :
    (∀ (equ : QuadEqu F) (x x' : List F) (y : List F), x ≠ [] → y ≠ [] → equ.Dims x.length y.length →
      x'.length = x.length → equ.Holds x y → equ.Holds x' y → ∀ sch sch' : Nat → Scheduler,
      SameViews (N := x.length + y.length + 1)
        (viewOn fun rng => equ.commitAndProve sch x y crs rng) (viewOn fun rng => equ.commitAndProve sch' x' y crs rng)) ↔
      EquivocalScalar F crs.u crs.g1_gen := by
  obtain ⟨u0, u1, hu⟩ := two_of_length hu
  obtain ⟨v0, v1, hv⟩ := two_of_length hv
  constructor
  · intro h
    have hdims : ∀ t, (zeroQuad t : QuadEqu F).Dims 1 1 := fun t => by constructor <;> simp [zeroQuad]
    obtain ⟨R, R', S, S', h1, h2⟩ := sameViews_coms (m := 1) (n := 1) (p := 1) (q := 1) (by rfl)
      (QuadEqu.view_eq (self := zeroQuad 0) (m := 1) (n := 1) (by omega) (by omega) (a := ![0]) (b := ![0]) (γ := ![![0]]) rfl rfl rfl ![1] ![0] hu hv)
      (QuadEqu.view_eq (self := zeroQuad 0) (m := 1) (n := 1) (by omega) (by omega) (a := ![0]) (b := ![0]) (γ := ![![0]]) rfl rfl rfl ![0] ![0] hu hv)
      (h (zeroQuad 0) [1] [0] [0] (by simp) (by simp) (hdims _) rfl (zeroQuad_holds.mpr rfl) (zeroQuad_holds.mpr rfl) (fun _ => forwards) (fun _ => forwards))
    refine (scalar_dichotomy _ (by rw [hu]; simp) : BindingScalar F crs.u crs.g1_gen ∨ EquivocalScalar F crs.u crs.g1_gen).resolve_left ?_
    rw [hu]
    exact not_binding_of_scalar (by simpa using h1 0)
  · intro e1 equ x x' y hx hy hd hlx h h' sch sch'
    have hm := List.length_pos_iff.mpr hx
    have hn := List.length_pos_iff.mpr hy
    obtain ⟨m, hxm⟩ : ∃ m, x.length = m := ⟨_, rfl⟩
    obtain ⟨n, hyn⟩ : ∃ n, y.length = n := ⟨_, rfl⟩
    rw [hxm] at hm hd hlx
    rw [hyn] at hn hd
    rw [hxm, hyn]
    obtain ⟨a, ha⟩ := exists_ofFn equ.a_consts hd.a
    obtain ⟨b, hb⟩ := exists_ofFn equ.b_consts hd.b
    obtain ⟨γ, hγ⟩ := rect_iff.mp (⟨hd.rows, hd.cols⟩ : Rect _ _ equ.gamma)
    obtain ⟨x, rfl⟩ := exists_ofFn x hxm
    obtain ⟨y, rfl⟩ := exists_ofFn y hyn
    obtain ⟨x', rfl⟩ := exists_ofFn x' hlx
    refine sameViews_of (p := 1) (q := 1) (by omega) (QuadEqu.view_eq hm hn ha hb hγ x y hu hv) (QuadEqu.view_eq hm hn ha hb hγ x' y hu hv) ?_
    rw [QuadEqu.Holds, ha, hb, hγ, equLhs_ofFn] at h h'
    obtain ⟨r, hr⟩ := EquivocalScalar.vec (hu ▸ e1)
    obtain ⟨κ, hκ⟩ : ∃ κ : Fin _ → F, κ = fun i => x' i - x i := ⟨_, rfl⟩
    have hκ' : ∀ i, x' i = x i + κ i := fun i => by rw [hκ]; ring
    refine viewFn_equiv_left _ _ r _ hr _ _ _ _ _ γ κ (fun i => by rw [hκ', add_smul]) ?_
    have hh := h'.trans h.symm
    have h0 := diff_left (LinearMap.lsmul F F) (Z := (1 : F)) (fun i => by rw [hκ', smul_eq_mul, mul_one]) hh
    have h0 := (smul_eq_zero.mp h0).resolve_left one_ne_zero
    simpa only [LinearMap.toSpanSingleton_apply] using map_left (LinearMap.toSpanSingleton F _ (v1 + ⟨0, crs.g2_gen⟩)) h0

/-- C96: what a quadratic proof publishes does not depend on which `yvars` solve the equation, for given `xvars`,
exactly when the commitments to `yvars` are equivocal. -/
theorem C96_quad_right (hu : crs.u.length = 2) (hv : crs.v.length = 2) :
    (∀ (equ : QuadEqu F) (x : List F) (y y' : List F), x ≠ [] → y ≠ [] → equ.Dims x.length y.length →
      y'.length = y.length → equ.Holds x y → equ.Holds x y' → ∀ sch sch' : Nat → Scheduler,
      SameViews (N := x.length + y.length + 1)
        (viewOn fun rng => equ.commitAndProve sch x y crs rng) (viewOn fun rng => equ.commitAndProve sch' x y' crs rng)) ↔
      EquivocalScalar F crs.v crs.g2_gen := by
  obtain ⟨u0, u1, hu⟩ := two_of_length hu
  obtain ⟨v0, v1, hv⟩ := two_of_length hv
  constructor
  · intro h
    have hdims : ∀ t, (zeroQuad t : QuadEqu F).Dims 1 1 := fun t => by constructor <;> simp [zeroQuad]
    obtain ⟨R, R', S, S', h1, h2⟩ := sameViews_coms (m := 1) (n := 1) (p := 1) (q := 1) (by rfl)
      (QuadEqu.view_eq (self := zeroQuad 0) (m := 1) (n := 1) (by omega) (by omega) (a := ![0]) (b := ![0]) (γ := ![![0]]) rfl rfl rfl ![0] ![1] hu hv)
      (QuadEqu.view_eq (self := zeroQuad 0) (m := 1) (n := 1) (by omega) (by omega) (a := ![0]) (b := ![0]) (γ := ![![0]]) rfl rfl rfl ![0] ![0] hu hv)
      (h (zeroQuad 0) [0] [1] [0] (by simp) (by simp) (hdims _) rfl (zeroQuad_holds.mpr rfl) (zeroQuad_holds.mpr rfl) (fun _ => forwards) (fun _ => forwards))
    refine (scalar_dichotomy _ (by rw [hv]; simp) : BindingScalar F crs.v crs.g2_gen ∨ EquivocalScalar F crs.v crs.g2_gen).resolve_left ?_
    rw [hv]
    exact not_binding_of_scalar (by simpa using h2 0)
  · intro e1 equ x y y' hx hy hd hly h h' sch sch'
    have hm := List.length_pos_iff.mpr hx
    have hn := List.length_pos_iff.mpr hy
    obtain ⟨m, hxm⟩ : ∃ m, x.length = m := ⟨_, rfl⟩
    obtain ⟨n, hyn⟩ : ∃ n, y.length = n := ⟨_, rfl⟩
    rw [hxm] at hm hd
    rw [hyn] at hn hd hly
    rw [hxm, hyn]
    obtain ⟨a, ha⟩ := exists_ofFn equ.a_consts hd.a
    obtain ⟨b, hb⟩ := exists_ofFn equ.b_consts hd.b
    obtain ⟨γ, hγ⟩ := rect_iff.mp (⟨hd.rows, hd.cols⟩ : Rect _ _ equ.gamma)
    obtain ⟨x, rfl⟩ := exists_ofFn x hxm
    obtain ⟨y, rfl⟩ := exists_ofFn y hyn
    obtain ⟨y', rfl⟩ := exists_ofFn y' hly
    refine sameViews_of (p := 1) (q := 1) (by omega) (QuadEqu.view_eq hm hn ha hb hγ x y hu hv) (QuadEqu.view_eq hm hn ha hb hγ x y' hu hv) ?_
    rw [QuadEqu.Holds, ha, hb, hγ, equLhs_ofFn] at h h'
    obtain ⟨r, hr⟩ := EquivocalScalar.vec (hv ▸ e1)
    obtain ⟨κ, hκ⟩ : ∃ κ : Fin _ → F, κ = fun i => y' i - y i := ⟨_, rfl⟩
    have hκ' : ∀ i, y' i = y i + κ i := fun i => by rw [hκ]; ring
    refine viewFn_equiv_right _ _ r _ hr _ _ _ _ _ γ κ (fun i => by rw [hκ', add_smul]) ?_
    have hh := h'.trans h.symm
    have h0 := diff_right (LinearMap.lsmul F F) (W := (1 : F)) (fun i => by rw [hκ', smul_eq_mul, mul_one]) hh
    have h0 := (smul_eq_zero.mp h0).resolve_right one_ne_zero
    simpa only [LinearMap.toSpanSingleton_apply] using map_right (LinearMap.toSpanSingleton F _ (u1 + ⟨0, crs.g1_gen⟩)) h0

/-! ### Examples

`mix7` is a CRS that `generate_crs` cannot return: its first key hides group elements and binds scalars, its second key
binds both. So MSMEG2 and quadratic proofs are sound with it, PPE and MSMEG1 proofs are not, and PPE proofs hide the
variables on the left but not those on the right. -/

namespace Ex

/-- The mixed CRS. -/
def mix7 : CRS K K K := ⟨[⟨0, 1⟩, ⟨1, 0⟩], crs7.v, 1, 2, 2⟩

theorem mix7_u : EquivocalGroup K mix7.u ∧ BindingScalar K mix7.u mix7.g1_gen :=
  C93_intermediate_key (F := K) (1 : K) (by decide) (prime7.cyclic1 1 (by decide))
theorem mix7_v : BindingGroup K mix7.v := (C93_group_criterion (F := K) (G := K) _ _).mpr (by decide)
theorem mix7_v' : BindingScalar K mix7.v mix7.g2_gen :=
  C93_group_binding_binds_scalars _ _ (by decide) (by decide) mix7_v

example : ¬ ∀ (equ : PPE K K K K) (cp : CProof K K K) (sch : Scheduler), equ.verify e7 sch cp mix7 = .ok true →
    ∃ x y, equ.Holds e7 x y := fun h =>
  mix7_u.1.not_binding (by decide) ((C94_ppe prime7 rfl rfl).mp h).1
example : ¬ ∀ (equ : MSMEG1 K K) (cp : CProof K K K) (sch : Scheduler), equ.verify e7 sch cp mix7 = .ok true →
    ∃ x y, equ.Holds x y := fun h =>
  mix7_u.1.not_binding (by decide) ((C94_msmeg1 prime7 rfl rfl).mp h).1
example : ∀ (equ : MSMEG2 K K) (cp : CProof K K K) (sch : Scheduler), equ.verify e7 sch cp mix7 = .ok true →
    ∃ x y, equ.Holds x y := (C94_msmeg2 prime7 rfl rfl).mpr ⟨mix7_u.2, mix7_v⟩
example : ∀ (equ : QuadEqu K) (cp : CProof K K K) (sch : Scheduler), equ.verify e7 sch cp mix7 = .ok true →
    ∃ x y, equ.Holds x y := (C94_quad prime7 rfl rfl).mpr ⟨mix7_u.2, mix7_v'⟩

/-- `x y = 0`, solved by `y = 0` and every `x`. -/
def prod7 : PPE K K K K := ⟨[0], [0], [[1]], 0⟩

example (sch sch' : Nat → Scheduler) : SameViews (N := 8)
    (viewOn fun rng => prod7.commitAndProve sch [2] [0] mix7 rng)
    (viewOn fun rng => prod7.commitAndProve sch' [5] [0] mix7 rng) :=
  (C96_ppe_left prime7 (crs := mix7) rfl rfl).mpr mix7_u.1 prod7 [2] [5] [0] (by simp) (by simp)
    (by constructor <;> simp [prod7]) rfl (by unfold PPE.Holds; decide) (by unfold PPE.Holds; decide) sch sch'
example : ¬ EquivocalGroup K mix7.v := fun h => h.not_binding (by decide) mix7_v
example : ¬ (EquivocalGroup K mix7.u ∧ EquivocalGroup K mix7.v) := fun h => h.2.not_binding (by decide) mix7_v
example : (EquivocalGroup K sim7.u ∧ EquivocalGroup K sim7.v) :=
  have h := C17_openable prime7 sim7_simulated sim7_nonzero
  ⟨fun c _ x' _ => h.1 c x', fun c _ x' _ => h.2.1 c x'⟩

/-! ### Instances: the other operations, with the mixed CRS and with a generated one -/

example := C93_G1_binding (F := K) (crs := mix7) rfl
example := C93_G1_equivocal prime7 (crs := mix7) rfl
example := C93_G1_either prime7 (crs := mix7) rfl
example := C93_G2_binding (F := K) (crs := mix7) rfl
example := C93_G2_equivocal prime7 (crs := mix7) rfl
example := C93_G2_either prime7 (crs := mix7) rfl
example := C93_scalar_B1_binding (F := K) (crs := mix7) rfl
example := C93_scalar_B1_equivocal (F := K) (crs := mix7) rfl
example := C93_scalar_B1_either (F := K) (crs := mix7) rfl
example := C93_scalar_B2_binding (F := K) (crs := mix7) rfl
example := C93_scalar_B2_equivocal (F := K) (crs := mix7) rfl
example := C93_scalar_B2_either (F := K) (crs := mix7) rfl
example := C95_ppe prime7 (crs := mix7) rfl rfl
example := C95_msmeg1 prime7 (crs := mix7) rfl rfl
example := C95_msmeg2 prime7 (crs := mix7) rfl rfl
example := C95_quad (F := K) (crs := mix7) rfl rfl
example := C96_ppe_right prime7 (crs := mix7) rfl rfl
example := C96_msmeg1_left prime7 (crs := mix7) rfl rfl
example := C96_msmeg1_right (F := K) (crs := mix7) rfl rfl
example := C96_msmeg2_left (F := K) (crs := mix7) rfl rfl
example := C96_msmeg2_right prime7 (crs := mix7) rfl rfl
example := C96_quad_left (F := K) (crs := mix7) rfl rfl
example := C96_quad_right (F := K) (crs := mix7) rfl rfl

theorem crs7_u_binds : BindingGroup K crs7.u := (C93_group_criterion (F := K) (G := K) _ _).mpr (by decide)
theorem crs7_v_binds : BindingGroup K crs7.v := mix7_v
theorem crs7_u_binds' : BindingScalar K crs7.u crs7.g1_gen :=
  C93_group_binding_binds_scalars _ _ (by decide) (by decide) crs7_u_binds
theorem crs7_v_binds' : BindingScalar K crs7.v crs7.g2_gen :=
  C93_group_binding_binds_scalars _ _ (by decide) (by decide) crs7_v_binds

example := C94_ppe_extract prime7 (crs := crs7) rfl rfl crs7_u_binds crs7_v_binds ppe7 ppe7_msg seqSched ppe7_accepted
example := C94_msmeg1_extract prime7 (crs := crs7) rfl rfl crs7_u_binds crs7_v_binds' msm1_7 msm1_7_msg seqSched msm1_7_accepted
example := C94_msmeg2_extract prime7 (crs := crs7) rfl rfl crs7_u_binds' crs7_v_binds msm2_7 msm2_7_msg seqSched msm2_7_accepted
example := C94_quad_extract prime7 (crs := crs7) rfl rfl crs7_u_binds' crs7_v_binds' quad7 quad7_msg seqSched quad7_accepted
example : BindingScalar K crs7.u crs7.g1_gen := C93_group_binding_binds_scalars _ _ (by decide) (by decide) crs7_u_binds
example : EquivocalGroup K [(⟨0, 3⟩ : Com K), ⟨3, 0⟩] ∧ BindingScalar K [(⟨0, 3⟩ : Com K), ⟨3, 0⟩] 3 :=
  C93_intermediate_key (F := K) (3 : K) (by decide) (prime7.cyclic1 3 (by decide))

end Ex
end GS
