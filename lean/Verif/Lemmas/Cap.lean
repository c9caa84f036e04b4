import Verif.Lemmas.Closed
import Verif.Lemmas.Tape
import Verif.Spec.Opening

/-! `commit_and_prove` as an explicit function of the draws. -/

set_option linter.unusedSectionVars false
set_option linter.unusedVariables false

namespace GS
variable {F G1 G2 GT : Type} [Field F] [AddCommGroup G1] [Module F G1] [AddCommGroup G2] [Module F G2]

/-! ### Flattened matrices -/

section flat
variable {α : Type} {m n : Nat}

theorem flatten_matOf (f : Fin m → Fin n → α) :
    (matOf f).flatten = List.ofFn fun k : Fin (m * n) => f k.divNat k.modNat := by
  rw [List.ofFn_mul]
  congr 1
  apply List.ofFn_inj.mpr
  funext i
  apply List.ofFn_inj.mpr
  funext j
  have hn : 0 < n := j.pos
  congr 1
  · congr 1
    ext
    simp only [Fin.divNat]
    rw [Nat.add_comm, Nat.add_mul_div_right _ _ hn, Nat.div_eq_of_lt j.2, Nat.zero_add]
  · ext
    simp only [Fin.modNat]
    rw [Nat.add_comm, Nat.add_mul_mod_self_right, Nat.mod_eq_of_lt j.2]

theorem flatten_matOf_length (f : Fin m → Fin n → α) : (matOf f).flatten.length = m * n := by
  rw [flatten_matOf, List.length_ofFn]

theorem flatten_matOf_inj {f g : Fin m → Fin n → α} (h : (matOf f).flatten = (matOf g).flatten) : f = g := by
  rw [flatten_matOf, flatten_matOf] at h
  have h := List.ofFn_injective h
  funext i j
  have := congrFun h (finProdFinEquiv (i, j))
  have h1 := finProdFinEquiv.symm_apply_apply (i, j)
  rw [finProdFinEquiv_symm_apply, Prod.mk.injEq] at h1
  simpa only [h1.1, h1.2] using this

theorem exists_flatten {l : List α} (h : l.length = m * n) : ∃ f : Fin m → Fin n → α, l = (matOf f).flatten := by
  obtain ⟨g, rfl⟩ := exists_ofFn l h
  refine ⟨fun i j => g (finProdFinEquiv (i, j)), ?_⟩
  rw [flatten_matOf]
  apply List.ofFn_inj.mpr
  funext k
  congr 1
  exact (finProdFinEquiv.apply_symm_apply k).symm

end flat

section draws
variable {ρ : Type} [Rng ρ F G1 G2]

theorem draws_split {a b : Nat} {s s' : ρ} {l1 l2 : List F} (hl : l1.length = a)
    (h : draws (F := F) G1 G2 (a + b) s = (l1 ++ l2, s')) :
    ∃ s1, draws (F := F) G1 G2 a s = (l1, s1) ∧ draws (F := F) G1 G2 b s1 = (l2, s') := by
  rw [draws_add] at h
  obtain ⟨h1, h2⟩ := Prod.mk.inj h
  obtain ⟨h3, h4⟩ := List.append_inj h1 (by rw [draws_length, hl])
  exact ⟨_, Prod.ext h3 rfl, Prod.ext h4 h2⟩

theorem draws_join {a b : Nat} {s s1 s' : ρ} {l1 l2 : List F}
    (h1 : draws (F := F) G1 G2 a s = (l1, s1)) (h2 : draws (F := F) G1 G2 b s1 = (l2, s')) :
    draws (F := F) G1 G2 (a + b) s = (l1 ++ l2, s') := by
  rw [draws_add, h1, h2]

theorem drawPairs_of_draws {m : Nat} {R : Fin m → Fin 2 → F} {s s' : ρ}
    (h : draws (F := F) G1 G2 (2 * m) s = ((matOf R).flatten, s')) :
    drawPairs (Rng.randF (F := F) G1 G2) m s = (List.ofFn fun i => (R i 0, R i 1), s') := by
  rw [draws_pairs] at h
  obtain ⟨h1, h2⟩ := Prod.mk.inj h
  refine Prod.ext (pairs_inj (h1.trans ?_)) h2
  simp [matOf, List.map_ofFn, Function.comp_def, List.ofFn_succ]

theorem matOf_col_flatten {α : Type} {m : Nat} (R : Fin m → Fin 1 → α) :
    (matOf R).flatten = List.ofFn fun i => R i 0 := by
  have : matOf R = (List.ofFn fun i => R i 0).map fun r => [r] := by
    simp [matOf, List.map_ofFn, Function.comp_def, List.ofFn_succ]
  rw [this, flatten_singletons]

theorem drawF_of_draws {m : Nat} {R : Fin m → Fin 1 → F} {s s' : ρ}
    (h : draws (F := F) G1 G2 m s = ((matOf R).flatten, s')) :
    drawF (Rng.randF (F := F) G1 G2) m s = (List.ofFn fun i => R i 0, s') := by
  rw [← draws_eq, h, matOf_col_flatten]

end draws

variable {ρ : Type} [Rng ρ F G1 G2] {sch : Nat → Scheduler} {crs : CRS G1 G2 GT} {rng rng' : ρ} {m n : Nat}

theorem ofFn_ne_nil {α : Type} (hm : 0 < m) (x : Fin m → α) : List.ofFn x ≠ [] := by
  intro h; have := congrArg List.length h; simp at this; omega

theorem pairs_matOf {α : Type} (R : Fin m → Fin 2 → α) :
    (List.ofFn fun i => (R i 0, R i 1)).map (fun p => [p.1, p.2]) = matOf R := by
  simp [matOf, List.map_ofFn, Function.comp_def, List.ofFn_succ]

theorem singles_matOf {α : Type} (R : Fin m → Fin 1 → α) :
    (List.ofFn fun i => R i 0).map (fun p => [p]) = matOf R := by
  simp [matOf, List.map_ofFn, Function.comp_def, List.ofFn_succ]

/-! ### Batch commitments as functions of the draws -/

theorem batchCommitG1_draws (hm : 0 < m) (x : Fin m → G1) {R : Fin m → Fin 2 → F} {u0 u1 : Com G1}
    (hu : crs.u = [u0, u1]) (hd : draws (F := F) G1 G2 (2 * m) rng = ((matOf R).flatten, rng')) :
    batchCommitG1 (List.ofFn x) crs rng =
      .ok (⟨List.ofFn fun i => groupCom u0 u1 (x i) (R i 0, R i 1), matOf R⟩, rng') := by
  refine batchCommitG1_iff.mpr ⟨ofFn_ne_nil hm x, u0, u1, hu, ?_⟩
  rw [List.length_ofFn, drawPairs_of_draws hd, zipWith_ofFn, pairs_matOf]
  rfl

theorem batchCommitG2_draws (hm : 0 < m) (x : Fin m → G2) {R : Fin m → Fin 2 → F} {u0 u1 : Com G2}
    (hu : crs.v = [u0, u1]) (hd : draws (F := F) G1 G2 (2 * m) rng = ((matOf R).flatten, rng')) :
    batchCommitG2 (List.ofFn x) crs rng =
      .ok (⟨List.ofFn fun i => groupCom u0 u1 (x i) (R i 0, R i 1), matOf R⟩, rng') := by
  refine batchCommitG2_iff.mpr ⟨ofFn_ne_nil hm x, u0, u1, hu, ?_⟩
  rw [List.length_ofFn, drawPairs_of_draws hd, zipWith_ofFn, pairs_matOf]
  rfl

theorem batchCommitB1_draws (hm : 0 < m) (x : Fin m → F) {R : Fin m → Fin 1 → F} {u0 u1 : Com G1} {u' : List (Com G1)}
    (hu : crs.u = u0 :: u1 :: u') (hd : draws (F := F) G1 G2 m rng = ((matOf R).flatten, rng')) :
    batchCommitScalarToB1 (List.ofFn x) crs rng =
      .ok (⟨List.ofFn fun i => scalarCom u0 u1 crs.g1_gen (x i) (R i 0), matOf R⟩, rng') := by
  refine batchCommitScalarToB1_iff.mpr ⟨ofFn_ne_nil hm x, u0, u1, u', hu, ?_⟩
  rw [List.length_ofFn, drawF_of_draws hd, zipWith_ofFn, singles_matOf]
  rfl

theorem batchCommitB2_draws (hm : 0 < m) (x : Fin m → F) {R : Fin m → Fin 1 → F} {u0 u1 : Com G2} {u' : List (Com G2)}
    (hu : crs.v = u0 :: u1 :: u') (hd : draws (F := F) G1 G2 m rng = ((matOf R).flatten, rng')) :
    batchCommitScalarToB2 (List.ofFn x) crs rng =
      .ok (⟨List.ofFn fun i => scalarCom u0 u1 crs.g2_gen (x i) (R i 0), matOf R⟩, rng') := by
  refine batchCommitScalarToB2_iff.mpr ⟨ofFn_ne_nil hm x, u0, u1, u', hu, ?_⟩
  rw [List.length_ofFn, drawF_of_draws hd, zipWith_ofFn, singles_matOf]
  rfl

/-! ### `commit_and_prove` as a function of the draws -/

theorem PPE.cap_draws {self : PPE F G1 G2 GT} (hm : 0 < m) (hn : 0 < n) {a : Fin n → G1} {b : Fin m → G2}
    {γ : Fin m → Fin n → F} (ha : self.a_consts = List.ofFn a) (hb : self.b_consts = List.ofFn b)
    (hγ : self.gamma = matOf γ) (x : Fin m → G1) (y : Fin n → G2) {u0 u1 : Com G1} {v0 v1 : Com G2}
    (hu : crs.u = [u0, u1]) (hv : crs.v = [v0, v1])
    {R : Fin m → Fin 2 → F} {S : Fin n → Fin 2 → F} {T : Fin 2 → Fin 2 → F}
    (hd : draws (F := F) G1 G2 (2 * m + 2 * n + 4) rng =
      ((matOf R).flatten ++ (matOf S).flatten ++ (matOf T).flatten, rng')) :
    self.commitAndProve sch (List.ofFn x) (List.ofFn y) crs rng =
      .ok (⟨⟨List.ofFn fun i => groupCom u0 u1 (x i) (R i 0, R i 1), matOf R⟩,
        ⟨List.ofFn fun j => groupCom v0 v1 (y j) (S j 0, S j 1), matOf S⟩,
        [⟨List.ofFn (piVal (fun i => i2 (F := F) (b i)) (fun j => i2 (F := F) (y j)) γ R S T ![v0, v1]),
          List.ofFn (thetaVal (fun j => i1 (F := F) (a j)) (fun i => i1 (F := F) (x i)) γ S T ![u0, u1]),
          .PairingProduct, matOf T⟩]⟩, rng') := by
  obtain ⟨s2, h12, h3⟩ := draws_split (by simp only [List.length_append, flatten_matOf_length]; omega) hd
  obtain ⟨s1, h1, h2⟩ := draws_split (by simp only [flatten_matOf_length]; omega) h12
  have hT : (matOf T).flatten = [T 0 0, T 0 1, T 1 0, T 1 1] := by simp [matOf, List.ofFn_succ]
  simp only [draws, hT, Prod.mk.injEq] at h3
  rw [PPE.commitAndProve, batchCommitG1_draws hm x hu h1, ok_bind]
  dsimp only
  rw [batchCommitG2_draws hn y hv h2, ok_bind]
  dsimp only
  rw [PPE.prove_closed hm hn ha hb hγ x y (R := R) (S := S) rfl rfl hu hv h3.1 h3.2]
  rfl

theorem MSMEG1.cap_draws {self : MSMEG1 F G1} (hm : 0 < m) (hn : 0 < n) {a : Fin n → G1} {b : Fin m → F}
    {γ : Fin m → Fin n → F} (ha : self.a_consts = List.ofFn a) (hb : self.b_consts = List.ofFn b)
    (hγ : self.gamma = matOf γ) (x : Fin m → G1) (y : Fin n → F) {u0 u1 : Com G1} {v0 v1 : Com G2} {v' : List (Com G2)}
    (hu : crs.u = [u0, u1]) (hv : crs.v = v0 :: v1 :: v')
    {R : Fin m → Fin 2 → F} {S : Fin n → Fin 1 → F} {T : Fin 1 → Fin 2 → F}
    (hd : draws (F := F) G1 G2 (2 * m + n + 2) rng =
      ((matOf R).flatten ++ (matOf S).flatten ++ (matOf T).flatten, rng')) :
    self.commitAndProve sch (List.ofFn x) (List.ofFn y) crs rng =
      .ok (⟨⟨List.ofFn fun i => groupCom u0 u1 (x i) (R i 0, R i 1), matOf R⟩,
        ⟨List.ofFn fun j => scalarCom v0 v1 crs.g2_gen (y j) (S j 0), matOf S⟩,
        [⟨List.ofFn (piVal (fun i => b i • (v1 + Com2.linearMap crs.g2_gen))
            (fun j => y j • (v1 + Com2.linearMap crs.g2_gen)) γ R S T ![v0]),
          List.ofFn (thetaVal (fun j => i1 (F := F) (a j)) (fun i => i1 (F := F) (x i)) γ S T ![u0, u1]),
          .MultiScalarG1, matOf T⟩]⟩, rng') := by
  obtain ⟨s2, h12, h3⟩ := draws_split (by simp only [List.length_append, flatten_matOf_length]; omega) hd
  obtain ⟨s1, h1, h2⟩ := draws_split (by simp only [flatten_matOf_length]; omega) h12
  have hT : (matOf T).flatten = [T 0 0, T 0 1] := by simp [matOf, List.ofFn_succ]
  simp only [draws, hT, Prod.mk.injEq] at h3
  rw [MSMEG1.commitAndProve, batchCommitG1_draws hm x hu h1, ok_bind]
  dsimp only
  rw [batchCommitB2_draws hn y hv h2, ok_bind]
  dsimp only
  rw [MSMEG1.prove_closed hm hn ha hb hγ x y (R := R) (S := S) rfl rfl hu hv h3.1 h3.2]
  rfl

theorem MSMEG2.cap_draws {self : MSMEG2 F G2} (hm : 0 < m) (hn : 0 < n) {a : Fin n → F} {b : Fin m → G2}
    {γ : Fin m → Fin n → F} (ha : self.a_consts = List.ofFn a) (hb : self.b_consts = List.ofFn b)
    (hγ : self.gamma = matOf γ) (x : Fin m → F) (y : Fin n → G2) {u0 u1 : Com G1} {u' : List (Com G1)} {v0 v1 : Com G2}
    (hu : crs.u = u0 :: u1 :: u') (hv : crs.v = [v0, v1])
    {R : Fin m → Fin 1 → F} {S : Fin n → Fin 2 → F} {T : Fin 2 → Fin 1 → F}
    (hd : draws (F := F) G1 G2 (m + 2 * n + 2) rng =
      ((matOf R).flatten ++ (matOf S).flatten ++ (matOf T).flatten, rng')) :
    self.commitAndProve sch (List.ofFn x) (List.ofFn y) crs rng =
      .ok (⟨⟨List.ofFn fun i => scalarCom u0 u1 crs.g1_gen (x i) (R i 0), matOf R⟩,
        ⟨List.ofFn fun j => groupCom v0 v1 (y j) (S j 0, S j 1), matOf S⟩,
        [⟨List.ofFn (piVal (fun i => i2 (F := F) (b i)) (fun j => i2 (F := F) (y j)) γ R S T ![v0, v1]),
          List.ofFn (thetaVal (fun j => a j • (u1 + Com1.linearMap crs.g1_gen))
            (fun i => x i • (u1 + Com1.linearMap crs.g1_gen)) γ S T ![u0]),
          .MultiScalarG2, matOf T⟩]⟩, rng') := by
  obtain ⟨s2, h12, h3⟩ := draws_split (by simp only [List.length_append, flatten_matOf_length]; omega) hd
  obtain ⟨s1, h1, h2⟩ := draws_split (by simp only [flatten_matOf_length]; omega) h12
  have hT : (matOf T).flatten = [T 0 0, T 1 0] := by simp [matOf, List.ofFn_succ]
  simp only [draws, hT, Prod.mk.injEq] at h3
  rw [MSMEG2.commitAndProve, batchCommitB1_draws hm x hu h1, ok_bind]
  dsimp only
  rw [batchCommitG2_draws hn y hv h2, ok_bind]
  dsimp only
  rw [MSMEG2.prove_closed hm hn ha hb hγ x y (R := R) (S := S) rfl rfl hu hv h3.1 h3.2]
  rfl

theorem QuadEqu.cap_draws {self : QuadEqu F} (hm : 0 < m) (hn : 0 < n) {a : Fin n → F} {b : Fin m → F}
    {γ : Fin m → Fin n → F} (ha : self.a_consts = List.ofFn a) (hb : self.b_consts = List.ofFn b)
    (hγ : self.gamma = matOf γ) (x : Fin m → F) (y : Fin n → F) {u0 u1 : Com G1} {u' : List (Com G1)} {v0 v1 : Com G2}
    {v' : List (Com G2)} (hu : crs.u = u0 :: u1 :: u') (hv : crs.v = v0 :: v1 :: v')
    {R : Fin m → Fin 1 → F} {S : Fin n → Fin 1 → F} {T : Fin 1 → Fin 1 → F}
    (hd : draws (F := F) G1 G2 (m + n + 1) rng =
      ((matOf R).flatten ++ (matOf S).flatten ++ (matOf T).flatten, rng')) :
    self.commitAndProve sch (List.ofFn x) (List.ofFn y) crs rng =
      .ok (⟨⟨List.ofFn fun i => scalarCom u0 u1 crs.g1_gen (x i) (R i 0), matOf R⟩,
        ⟨List.ofFn fun j => scalarCom v0 v1 crs.g2_gen (y j) (S j 0), matOf S⟩,
        [⟨List.ofFn (piVal (fun i => b i • (v1 + Com2.linearMap crs.g2_gen))
            (fun j => y j • (v1 + Com2.linearMap crs.g2_gen)) γ R S T ![v0]),
          List.ofFn (thetaVal (fun j => a j • (u1 + Com1.linearMap crs.g1_gen))
            (fun i => x i • (u1 + Com1.linearMap crs.g1_gen)) γ S T ![u0]),
          .Quadratic, matOf T⟩]⟩, rng') := by
  obtain ⟨s2, h12, h3⟩ := draws_split (by simp only [List.length_append, flatten_matOf_length]; omega) hd
  obtain ⟨s1, h1, h2⟩ := draws_split (by simp only [flatten_matOf_length]; omega) h12
  have hT : (matOf T).flatten = [T 0 0] := by simp [matOf, List.ofFn_succ]
  simp only [draws, hT, Prod.mk.injEq] at h3
  rw [QuadEqu.commitAndProve, batchCommitB1_draws hm x hu h1, ok_bind]
  dsimp only
  rw [batchCommitB2_draws hn y hv h2, ok_bind]
  dsimp only
  rw [QuadEqu.prove_closed hm hn ha hb hγ x y (R := R) (S := S) rfl rfl hu hv h3.1 h3.2]
  rfl

/-! ### Every run is of this form -/

/-- Draws cut into the three matrices. -/
theorem draws_cut (p q k l : Nat) (N : Nat) (hN : N = m * p + n * q + k * l) (rng : ρ) :
    ∃ (R : Fin m → Fin p → F) (S : Fin n → Fin q → F) (T : Fin k → Fin l → F),
      draws (F := F) G1 G2 N rng =
        ((matOf R).flatten ++ (matOf S).flatten ++ (matOf T).flatten, (draws (F := F) G1 G2 N rng).2) := by
  have hl : (draws (F := F) G1 G2 N rng).1.length = m * p + n * q + k * l := by rw [draws_length, hN]
  generalize (draws (F := F) G1 G2 N rng) = d at hl
  obtain ⟨d, s⟩ := d
  simp only at hl ⊢
  obtain ⟨R, hR⟩ := exists_flatten (l := d.take (m * p)) (m := m) (n := p) (by rw [List.length_take]; omega)
  obtain ⟨S, hS⟩ := exists_flatten (l := (d.drop (m * p)).take (n * q)) (m := n) (n := q) (by
    rw [List.length_take, List.length_drop]; omega)
  obtain ⟨T, hT⟩ := exists_flatten (l := (d.drop (m * p)).drop (n * q)) (m := k) (n := l) (by
    rw [List.length_drop, List.length_drop]; omega)
  refine ⟨R, S, T, ?_⟩
  rw [← hR, ← hS, ← hT, List.append_assoc, List.take_append_drop, List.take_append_drop]

end GS
