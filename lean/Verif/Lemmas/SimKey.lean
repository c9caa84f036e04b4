import Verif.Lemmas.WI
import Verif.Lemmas.Hiding
import Verif.Lemmas.Crs
import Verif.Lemmas.Honest

/-! A simulated key, and views of the four provers on it. -/

set_option linter.unusedSectionVars false
set_option linter.unusedVariables false

namespace GS
variable {F G G1 G2 GT : Type} [Field F] [AddCommGroup G] [Module F G] [AddCommGroup G1] [Module F G1]
  [AddCommGroup G2] [Module F G2] [AddCommGroup GT] [Module F GT]

/-! ### The key -/

/-- `u0 = (g, a g)` and `u1 = (t g, t a g - g)` for a generator `g ≠ 0`. -/
structure HidingKey (g : G) (a t : F) (u0 u1 : Com G) : Prop where
  ne : g ≠ 0
  cyc : ∀ x : G, ∃ k : F, x = k • g
  h0 : u0 = ⟨g, a • g⟩
  h1 : u1 = ⟨t • g, t • a • g - g⟩

theorem SimulatedCrs.keys {e : G1 →ₗ[F] G2 →ₗ[F] GT} {crs : CRS G1 G2 GT} (he : PrimeGroups e)
    (h : SimulatedCrs e crs) (hg : crs.NonzeroGens) :
    ∃ u0 u1 v0 v1, ∃ a1 t1 a2 t2 : F, crs.u = [u0, u1] ∧ crs.v = [v0, v1] ∧ HidingKey crs.g1_gen a1 t1 u0 u1 ∧
      HidingKey crs.g2_gen a2 t2 v0 v1 := by
  obtain ⟨p1, p2, a1, a2, t1, t2, rfl⟩ := h
  rw [assembleSim_eq] at hg ⊢
  exact ⟨_, _, _, _, a1, t1, a2, t2, rfl, rfl, ⟨hg.1, he.cyclic1 _ hg.1, rfl, rfl⟩, ⟨hg.2, he.cyclic2 _ hg.2, rfl, rfl⟩⟩

variable {g : G} {a t : F} {u0 u1 : Com G}

theorem HidingKey.indep2 (h : HidingKey g a t u0 u1) : Indep (F := F) ![u0, u1] := by
  intro r hr
  simp only [Fin.sum_univ_two, Matrix.cons_val_zero, Matrix.cons_val_one] at hr
  rw [h.h0, h.h1] at hr
  obtain ⟨_, -, hu⟩ := hiding_basis h.ne h.cyc a t 0
  have h1 := hu (r 0, r 1) hr.symm
  have h2 := hu (0, 0) (by simp)
  rw [← h2, Prod.mk.injEq] at h1
  funext k; fin_cases k
  · exact h1.1
  · exact h1.2

theorem HidingKey.indep1 (h : HidingKey g a t u0 u1) : Indep (F := F) ![u0] := by
  intro r hr
  simp only [Fin.sum_univ_one, Matrix.cons_val_zero] at hr
  rw [h.h0] at hr
  have : r 0 • g = 0 := congrArg Com.c0 hr
  funext k; fin_cases k
  exact (smul_eq_zero.mp this).resolve_right h.ne

theorem HidingKey.span2 (h : HidingKey g a t u0 u1) (c : Com G) : c ∈ Submodule.span F (Set.range ![u0, u1]) := by
  obtain ⟨rs, hrs, -⟩ := hiding_basis h.ne h.cyc a t c
  refine (Submodule.mem_span_range_iff_exists_fun F).mpr ⟨![rs.1, rs.2], ?_⟩
  simp only [Fin.sum_univ_two, Matrix.cons_val_zero, Matrix.cons_val_one]
  rw [hrs, h.h0, h.h1]

theorem HidingKey.lift (h : HidingKey g a t u0 u1) : u1 + ⟨0, g⟩ = t • u0 := by
  rw [h.h0, h.h1]; ext <;> simp

theorem mem_span1 (r : F) (u0 : Com G) : r • u0 ∈ Submodule.span F (Set.range ![u0]) :=
  Submodule.smul_mem _ _ (Submodule.subset_span ⟨0, rfl⟩)

theorem HidingKey.span1 (h : HidingKey g a t u0 u1) (r : F) :
    r • (u1 + ⟨0, g⟩) ∈ Submodule.span F (Set.range ![u0]) := by
  rw [h.lift, smul_smul]
  exact mem_span1 _ _

theorem HidingKey.pair1 {e : G →ₗ[F] G2 →ₗ[F] GT} (he : PrimeGroups e) (h : HidingKey g a t u0 u1)
    (δ : Fin 1 → Com G2) (hδ : ∑ k, ComT.pairL e (![u0] k) (δ k) = 0) : δ = 0 := by
  simp only [Fin.sum_univ_one, Matrix.cons_val_zero] at hδ
  rw [h.h0] at hδ
  have h0 : e g (δ 0).c0 = 0 := congrArg ComT.t0 hδ
  have h1 : e g (δ 0).c1 = 0 := congrArg ComT.t1 hδ
  funext k; fin_cases k
  ext
  · exact (he.nondeg _ _ h0).resolve_left h.ne
  · exact (he.nondeg _ _ h1).resolve_left h.ne

theorem HidingKey.pair2 {e : G →ₗ[F] G2 →ₗ[F] GT} (he : PrimeGroups e) (h : HidingKey g a t u0 u1)
    (δ : Fin 2 → Com G2) (hδ : ∑ k, ComT.pairL e (![u0, u1] k) (δ k) = 0) : δ = 0 := by
  simp only [Fin.sum_univ_two, Matrix.cons_val_zero, Matrix.cons_val_one] at hδ
  rw [h.h0, h.h1] at hδ
  have key : ∀ x y : G2, e g x + e (t • g) y = 0 → e (a • g) x + e (t • a • g - g) y = 0 → x = 0 ∧ y = 0 := by
    intro x y h1 h2
    have e1 : e g (x + t • y) = 0 := by rw [← h1]; simp
    have x1 := (he.nondeg _ _ e1).resolve_left h.ne
    have e2 : e g y = 0 := by
      have : e g (a • (x + t • y)) - (e (a • g) x + e (t • a • g - g) y) = e g y := by
        simp only [map_add, map_sub, map_smul, LinearMap.sub_apply, LinearMap.smul_apply]
        module
      rw [x1, h2] at this
      simpa using this.symm
    have y0 := (he.nondeg _ _ e2).resolve_left h.ne
    subst y0
    exact ⟨by simpa using x1, rfl⟩
  have k0 := key (δ 0).c0 (δ 1).c0 (congrArg ComT.t0 hδ) (congrArg ComT.t2 hδ)
  have k1 := key (δ 0).c1 (δ 1).c1 (congrArg ComT.t1 hδ) (congrArg ComT.t3 hδ)
  funext k; fin_cases k
  · exact Com.ext k0.1 k1.1
  · exact Com.ext k0.2 k1.2

/-! ### Views -/

/-- The published form of commitments and proof. -/
def pub {m n p q : Nat} (ty : EquType) (w : (Fin m → Com G1) × (Fin n → Com G2) × (Fin p → Com G2) × (Fin q → Com G1)) :
    View G1 G2 :=
  (List.ofFn w.1, List.ofFn w.2.1, [(List.ofFn w.2.2.1, List.ofFn w.2.2.2, ty)])

theorem groupCom_sum {m : Nat} (u0 u1 : Com G) (x : Fin m → G) (R : Fin m → Fin 2 → F) :
    (List.ofFn fun i => groupCom u0 u1 (x i) (R i 0, R i 1)) =
      List.ofFn fun i => (⟨0, x i⟩ : Com G) + ∑ k, R i k • ![u0, u1] k := by
  apply List.ofFn_inj.mpr
  funext i
  simp [groupCom, Fin.sum_univ_two, add_assoc]

theorem scalarCom_sum {m : Nat} (u0 u1 : Com G) (g : G) (x : Fin m → F) (R : Fin m → Fin 1 → F) :
    (List.ofFn fun i => scalarCom u0 u1 g (x i) (R i 0)) =
      List.ofFn fun i => x i • (u1 + ⟨0, g⟩) + ∑ k, R i k • ![u0] k := by
  apply List.ofFn_inj.mpr
  funext i
  simp [scalarCom]

section views
variable {sch : Nat → Scheduler} {crs : CRS G1 G2 GT} {m n N : Nat}

theorem viewOn_ok {run : List F → Res (CProof F G1 G2 × List F)} {t : Fin N → F} {l : List F} (h : List.ofFn t = l)
    {cp : CProof F G1 G2} {v : View G1 G2} (hr : run l = .ok (cp, [])) (hv : cp.publicPart = v) :
    viewOn run t = .ok v := by
  rw [viewOn, h, hr, ← hv]; rfl

theorem PPE.view_eq {self : PPE F G1 G2 GT} (hm : 0 < m) (hn : 0 < n) {a : Fin n → G1} {b : Fin m → G2}
    {γ : Fin m → Fin n → F} (ha : self.a_consts = List.ofFn a) (hb : self.b_consts = List.ofFn b)
    (hγ : self.gamma = matOf γ) (x : Fin m → G1) (y : Fin n → G2) {u0 u1 : Com G1} {v0 v1 : Com G2}
    (hu : crs.u = [u0, u1]) (hv : crs.v = [v0, v1]) (t : Fin (2 * m + 2 * n + 4) → F) (r : Rands F m n 2 2)
    (ht : List.ofFn t = flat r) :
    viewOn (fun rng => self.commitAndProve sch (List.ofFn x) (List.ofFn y) crs rng) t =
      .ok (pub .PairingProduct (viewFn ![u0, u1] ![v0, v1] (fun j => i1 (F := F) (a j)) (fun i => i1 (F := F) (x i))
        (fun i => i2 (F := F) (b i)) (fun j => i2 (F := F) (y j)) γ r)) := by
  refine viewOn_ok ht (PPE.cap_draws hm hn ha hb hγ x y hu hv (R := r.1) (S := r.2.1) (T := r.2.2) (rng' := [])
    (rng := flat r) ?_) ?_
  · have := draws_tape' (F := F) (G1 := G1) (G2 := G2) (l := flat r) (n := 2 * m + 2 * n + 4)
      (by rw [flat_length]; omega) []
    rw [List.append_nil] at this
    exact this
  · simp only [CProof.publicPart, pub, viewFn, groupCom_sum]; rfl

theorem MSMEG1.view_eq {self : MSMEG1 F G1} (hm : 0 < m) (hn : 0 < n) {a : Fin n → G1} {b : Fin m → F}
    {γ : Fin m → Fin n → F} (ha : self.a_consts = List.ofFn a) (hb : self.b_consts = List.ofFn b)
    (hγ : self.gamma = matOf γ) (x : Fin m → G1) (y : Fin n → F) {u0 u1 : Com G1} {v0 v1 : Com G2}
    {v' : List (Com G2)} (hu : crs.u = [u0, u1]) (hv : crs.v = v0 :: v1 :: v') (t : Fin (2 * m + n + 2) → F)
    (r : Rands F m n 2 1) (ht : List.ofFn t = flat r) :
    viewOn (fun rng => self.commitAndProve sch (List.ofFn x) (List.ofFn y) crs rng) t =
      .ok (pub .MultiScalarG1 (viewFn ![u0, u1] ![v0] (fun j => i1 (F := F) (a j)) (fun i => i1 (F := F) (x i))
        (fun i => b i • (v1 + ⟨0, crs.g2_gen⟩)) (fun j => y j • (v1 + ⟨0, crs.g2_gen⟩)) γ r)) := by
  refine viewOn_ok ht (MSMEG1.cap_draws hm hn ha hb hγ x y hu hv (R := r.1) (S := r.2.1) (T := r.2.2) (rng' := [])
    (rng := flat r) ?_) ?_
  · have := draws_tape' (F := F) (G1 := G1) (G2 := G2) (l := flat r) (n := 2 * m + n + 2)
      (by rw [flat_length]; omega) []
    rw [List.append_nil] at this
    exact this
  · simp only [CProof.publicPart, pub, viewFn, groupCom_sum, scalarCom_sum]; rfl

theorem MSMEG2.view_eq {self : MSMEG2 F G2} (hm : 0 < m) (hn : 0 < n) {a : Fin n → F} {b : Fin m → G2}
    {γ : Fin m → Fin n → F} (ha : self.a_consts = List.ofFn a) (hb : self.b_consts = List.ofFn b)
    (hγ : self.gamma = matOf γ) (x : Fin m → F) (y : Fin n → G2) {u0 u1 : Com G1} {u' : List (Com G1)}
    {v0 v1 : Com G2} (hu : crs.u = u0 :: u1 :: u') (hv : crs.v = [v0, v1]) (t : Fin (m + 2 * n + 2) → F)
    (r : Rands F m n 1 2) (ht : List.ofFn t = flat r) :
    viewOn (fun rng => self.commitAndProve sch (List.ofFn x) (List.ofFn y) crs rng) t =
      .ok (pub .MultiScalarG2 (viewFn ![u0] ![v0, v1] (fun j => a j • (u1 + ⟨0, crs.g1_gen⟩))
        (fun i => x i • (u1 + ⟨0, crs.g1_gen⟩)) (fun i => i2 (F := F) (b i)) (fun j => i2 (F := F) (y j)) γ r)) := by
  refine viewOn_ok ht (MSMEG2.cap_draws hm hn ha hb hγ x y hu hv (R := r.1) (S := r.2.1) (T := r.2.2) (rng' := [])
    (rng := flat r) ?_) ?_
  · have := draws_tape' (F := F) (G1 := G1) (G2 := G2) (l := flat r) (n := m + 2 * n + 2)
      (by rw [flat_length]; omega) []
    rw [List.append_nil] at this
    exact this
  · simp only [CProof.publicPart, pub, viewFn, groupCom_sum, scalarCom_sum]; rfl

theorem QuadEqu.view_eq {self : QuadEqu F} (hm : 0 < m) (hn : 0 < n) {a : Fin n → F} {b : Fin m → F}
    {γ : Fin m → Fin n → F} (ha : self.a_consts = List.ofFn a) (hb : self.b_consts = List.ofFn b)
    (hγ : self.gamma = matOf γ) (x : Fin m → F) (y : Fin n → F) {u0 u1 : Com G1} {u' : List (Com G1)}
    {v0 v1 : Com G2} {v' : List (Com G2)} (hu : crs.u = u0 :: u1 :: u') (hv : crs.v = v0 :: v1 :: v')
    (t : Fin (m + n + 1) → F) (r : Rands F m n 1 1) (ht : List.ofFn t = flat r) :
    viewOn (fun rng => self.commitAndProve sch (List.ofFn x) (List.ofFn y) crs rng) t =
      .ok (pub .Quadratic (viewFn ![u0] ![v0] (fun j => a j • (u1 + ⟨0, crs.g1_gen⟩))
        (fun i => x i • (u1 + ⟨0, crs.g1_gen⟩)) (fun i => b i • (v1 + ⟨0, crs.g2_gen⟩))
        (fun j => y j • (v1 + ⟨0, crs.g2_gen⟩)) γ r)) := by
  refine viewOn_ok ht (QuadEqu.cap_draws hm hn ha hb hγ x y hu hv (R := r.1) (S := r.2.1) (T := r.2.2) (rng' := [])
    (rng := flat r) ?_) ?_
  · have := draws_tape' (F := F) (G1 := G1) (G2 := G2) (l := flat r) (n := m + n + 1)
      (by rw [flat_length]; omega) []
    rw [List.append_nil] at this
    exact this
  · simp only [CProof.publicPart, pub, viewFn, scalarCom_sum]; rfl

/-! ### The equation at the linear images -/

theorem PPE.value {e : G1 →ₗ[F] G2 →ₗ[F] GT} {self : PPE F G1 G2 GT} {a : Fin n → G1} {b : Fin m → G2}
    {γ : Fin m → Fin n → F} (ha : self.a_consts = List.ofFn a) (hb : self.b_consts = List.ofFn b)
    (hγ : self.gamma = matOf γ) {x : Fin m → G1} {y : Fin n → G2} (h : self.Holds e (List.ofFn x) (List.ofFn y)) :
    (∑ j, ComT.pairL e (i1 (F := F) (a j)) (i2 (F := F) (y j))) +
      (∑ i, ComT.pairL e (i1 (F := F) (x i)) (i2 (F := F) (b i))) +
      ∑ i, ∑ j, γ i j • ComT.pairL e (i1 (F := F) (x i)) (i2 (F := F) (y j)) = tPPE (F := F) self.target := by
  have := equLhs_map (F := F) (fun x y => e x y) (fun x y => ComT.pairL e x y) (i1 (F := F)) (i2 (F := F)) tPPE
    (fun x y => by ext <;> simp [tPPE, i1_apply, i2_apply, ComT.linearMapPPE, ComT.pairL_apply, ComT.pairing])
    (List.ofFn a) (List.ofFn x) (List.ofFn b) (List.ofFn y) (matOf γ)
  rw [PPE.Holds, ha, hb, hγ] at h
  rw [h] at this
  simp only [List.map_ofFn] at this
  rw [equLhs_ofFn] at this
  exact this.symm

theorem MSMEG1.value {e : G1 →ₗ[F] G2 →ₗ[F] GT} {self : MSMEG1 F G1} {a : Fin n → G1} {b : Fin m → F}
    {γ : Fin m → Fin n → F} (ha : self.a_consts = List.ofFn a) (hb : self.b_consts = List.ofFn b)
    (hγ : self.gamma = matOf γ) {x : Fin m → G1} {y : Fin n → F} (h : self.Holds (List.ofFn x) (List.ofFn y))
    (w : Com G2) :
    (∑ j, ComT.pairL e (i1 (F := F) (a j)) (y j • w)) +
      (∑ i, ComT.pairL e (i1 (F := F) (x i)) (b i • w)) +
      ∑ i, ∑ j, γ i j • ComT.pairL e (i1 (F := F) (x i)) (y j • w) = tMSMEG1 e w self.target := by
  have := equLhs_map (F := F) (fun (x : G1) (y : F) => y • x) (fun x y => ComT.pairL e x y) (i1 (F := F))
    (fun y => y • w) (tMSMEG1 e w) (fun x y => by rw [map_smul, map_smul]; rfl)
    (List.ofFn a) (List.ofFn x) (List.ofFn b) (List.ofFn y) (matOf γ)
  rw [MSMEG1.Holds, ha, hb, hγ] at h
  rw [h] at this
  simp only [List.map_ofFn] at this
  rw [equLhs_ofFn] at this
  exact this.symm

theorem MSMEG2.value {e : G1 →ₗ[F] G2 →ₗ[F] GT} {self : MSMEG2 F G2} {a : Fin n → F} {b : Fin m → G2}
    {γ : Fin m → Fin n → F} (ha : self.a_consts = List.ofFn a) (hb : self.b_consts = List.ofFn b)
    (hγ : self.gamma = matOf γ) {x : Fin m → F} {y : Fin n → G2} (h : self.Holds (List.ofFn x) (List.ofFn y))
    (w : Com G1) :
    (∑ j, ComT.pairL e (a j • w) (i2 (F := F) (y j))) +
      (∑ i, ComT.pairL e (x i • w) (i2 (F := F) (b i))) +
      ∑ i, ∑ j, γ i j • ComT.pairL e (x i • w) (i2 (F := F) (y j)) = tMSMEG2 e w self.target := by
  have := equLhs_map (F := F) (fun (x : F) (y : G2) => x • y) (fun x y => ComT.pairL e x y) (fun x => x • w)
    (i2 (F := F)) (tMSMEG2 e w) (fun x y => by rw [map_smul, map_smul]; rfl)
    (List.ofFn a) (List.ofFn x) (List.ofFn b) (List.ofFn y) (matOf γ)
  rw [MSMEG2.Holds, ha, hb, hγ] at h
  rw [h] at this
  simp only [List.map_ofFn] at this
  rw [equLhs_ofFn] at this
  exact this.symm

theorem QuadEqu.value {e : G1 →ₗ[F] G2 →ₗ[F] GT} {self : QuadEqu F} {a : Fin n → F} {b : Fin m → F}
    {γ : Fin m → Fin n → F} (ha : self.a_consts = List.ofFn a) (hb : self.b_consts = List.ofFn b)
    (hγ : self.gamma = matOf γ) {x : Fin m → F} {y : Fin n → F} (h : self.Holds (List.ofFn x) (List.ofFn y))
    (w : Com G1) (w' : Com G2) :
    (∑ j, ComT.pairL e (a j • w) (y j • w')) + (∑ i, ComT.pairL e (x i • w) (b i • w')) +
      ∑ i, ∑ j, γ i j • ComT.pairL e (x i • w) (y j • w') = tQuad e w w' self.target := by
  have := equLhs_map (F := F) (fun (x : F) (y : F) => x * y) (fun x y => ComT.pairL e x y) (fun x => x • w)
    (fun y => y • w') (tQuad e w w') (fun x y => by
      simp only [tQuad, LinearMap.toSpanSingleton_apply, map_smul, LinearMap.smul_apply, mul_smul]
      rw [smul_comm])
    (List.ofFn a) (List.ofFn x) (List.ofFn b) (List.ofFn y) (matOf γ)
  rw [QuadEqu.Holds, ha, hb, hγ] at h
  rw [h] at this
  simp only [List.map_ofFn] at this
  rw [equLhs_ofFn] at this
  exact this.symm

end views
end GS
