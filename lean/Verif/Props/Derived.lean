import Verif.Lemmas.Derived
import Verif.Props.Variables

/-!
# C113: values computed from committed values

Linear combinations of commitments, with the images of public values added, are commitments to the same combinations of the values.
A proof about the committed values is, unchanged, a proof about the combinations.
-/

set_option linter.unusedSectionVars false

namespace GS
variable {F G1 G2 GT : Type} [Field F] [AddCommGroup G1] [Module F G1] [AddCommGroup G2] [Module F G2]
  [AddCommGroup GT] [Module F GT] {e : G1 →ₗ[F] G2 →ₗ[F] GT} {crs : CRS G1 G2 GT} {k l m n : Nat}

/-! ### Opening -/

section opens
variable {G : Type} [AddCommGroup G] [Module F G]

theorem affine_smul (A : _root_.Matrix (Fin k) (Fin m) F) (δ : Fin k → F) (x : Fin m → F) (w : G) (i : Fin k) :
    affine A δ x i • w = affine A (fun i => δ i • w) (fun j => x j • w) i := by
  simpa using affine_map (LinearMap.toSpanSingleton F G w) A δ x i

theorem pull_smul (A : _root_.Matrix (Fin k) (Fin m) F) (γ : _root_.Matrix (Fin k) (Fin l) F) (ε : Fin l → F) (b : Fin k → F) (w : G)
    (i : Fin m) : pull A γ ε b i • w = pull A γ (fun j => ε j • w) (fun i => b i • w) i := by
  simpa using pull_map (LinearMap.toSpanSingleton F G w) A γ ε b i

theorem affine_emb (A : _root_.Matrix (Fin k) (Fin m) F) (δ : Fin k → G) (x : Fin m → G) (i : Fin k) :
    (emb (affine A δ x i) : Com G) = affine A (fun i => emb (δ i)) (fun j => emb (x j)) i :=
  affine_map (i1 : G →ₗ[F] Com G) A δ x i

theorem pull_emb (A : _root_.Matrix (Fin k) (Fin m) F) (γ : _root_.Matrix (Fin k) (Fin l) F) (ε : Fin l → G) (b : Fin k → G)
    (i : Fin m) : (emb (pull A γ ε b i) : Com G) = pull A γ (fun j => emb (ε j)) (fun i => emb (b i)) i :=
  pull_map (i1 : G →ₗ[F] Com G) A γ ε b i

theorem affine_rand (A : _root_.Matrix (Fin k) (Fin m) F) {p : Nat} (R : _root_.Matrix (Fin m) (Fin p) F) (δ x : _) (w : Fin p → G)
    (i : Fin k) : affine A δ x i + ∑ κ, (A * R) i κ • w κ = affine A δ (fun j => x j + ∑ κ, R j κ • w κ) i := by
  simp only [affine, _root_.Matrix.mul_apply, Finset.sum_smul, Finset.smul_sum, smul_smul, smul_add, Finset.sum_add_distrib]
  rw [Finset.sum_comm]
  abel

/-- C113: the combinations of commitments to group elements, with the same combinations of the randomness, are commitments to the
combinations of the elements. -/
theorem C113_opens_group {u : List (Com G)} (A : _root_.Matrix (Fin k) (Fin m) F) (δ : Fin k → G) {c : Fin m → Com G} {x : Fin m → G}
    {R : _root_.Matrix (Fin m) (Fin 2) F} (h : Commit.OpensGroup u ⟨List.ofFn c, rows R⟩ (List.ofFn x)) :
    Commit.OpensGroup u ⟨List.ofFn (affine A (fun i => ⟨0, δ i⟩) c), rows (A * R)⟩ (List.ofFn (affine A δ x)) := by
  obtain ⟨u0, u1, u', hu, R', hR, hc⟩ := opensGroup_ofFn.mp h
  refine opensGroup_ofFn.mpr ⟨u0, u1, u', hu, fun i κ => (A * R) i κ, rfl, ?_⟩
  obtain rfl : R' = fun i κ => R i κ := (matOf_inj.mp hR).symm
  obtain rfl := List.ofFn_injective hc
  refine congrArg List.ofFn (funext fun i => ?_)
  rw [← affine_rand A R _ (fun j => (⟨0, x j⟩ : Com G)) (![u0, u1]) i]
  exact congrArg (· + _) (affine_emb A δ x i).symm

/-- C113: the same for commitments to scalars. -/
theorem C113_opens_scalar {u0 u1 : Com G} {u' : List (Com G)} {g : G} (A : _root_.Matrix (Fin k) (Fin m) F) (δ : Fin k → F)
    {c : Fin m → Com G} {x : Fin m → F} {R : _root_.Matrix (Fin m) (Fin 1) F}
    (h : Commit.OpensScalar (u0 :: u1 :: u') g ⟨List.ofFn c, rows R⟩ (List.ofFn x)) :
    Commit.OpensScalar (u0 :: u1 :: u') g ⟨List.ofFn (affine A (fun i => δ i • (u1 + ⟨0, g⟩)) c), rows (A * R)⟩
      (List.ofFn (affine A δ x)) := by
  obtain ⟨u0', u1', u'', hu, R', hR, hc⟩ := opensScalar_ofFn.mp h
  refine opensScalar_ofFn.mpr ⟨u0, u1, u', rfl, fun i κ => (A * R) i κ, rfl, ?_⟩
  cases hu
  obtain rfl : R' = fun i κ => R i κ := (matOf_inj.mp hR).symm
  obtain rfl := List.ofFn_injective hc
  refine congrArg List.ofFn (funext fun i => ?_)
  rw [← affine_rand A R _ (fun j => x j • (u1 + ⟨0, g⟩)) (![u0]) i, affine_smul]

end opens

/-! ### Equations -/

theorem rows_matOf {α : Type} (γ : _root_.Matrix (Fin m) (Fin n) α) : rows γ = matOf fun i j => γ i j := rfl

theorem corr_map {A B C A' B' C' : Type} [AddCommGroup C] [Module F C] [AddCommGroup C'] [Module F C'] (f : A → B → C) (f' : A' → B' → C')
    (p : A → A') (q : B → B') (g : C →ₗ[F] C') (h : ∀ x y, f' (p x) (q y) = g (f x y)) (a : Fin n → A) (y : Fin n → B) (x : Fin m → A)
    (b : Fin m → B) (γ : _root_.Matrix (Fin m) (Fin n) F) (t : C) :
    g (t - (∑ j, f (a j) (y j) + ∑ i, f (x i) (b i) + ∑ i, ∑ j, γ i j • f (x i) (y j))) =
      g t - (∑ j, f' (p (a j)) (q (y j)) + ∑ i, f' (p (x i)) (q (b i)) + ∑ i, ∑ j, γ i j • f' (p (x i)) (q (y j))) := by
  simp only [h, map_sub, map_add, map_sum, map_smul]

theorem iff_shift {C : Type} [AddCommGroup C] {L K T T' P Q : C} (h : T' = T - K) : L + K = T + P + Q ↔ L = T' + P + Q := by
  rw [h, sub_add_eq_add_sub, sub_add_eq_add_sub, eq_sub_iff_add_eq]

/-- `t ↦ (0, 0, 0, t)`. -/
def targetL : GT →ₗ[F] ComT GT where
  toFun t := ⟨0, 0, 0, t⟩
  map_add' x y := by ext <;> simp
  map_smul' r x := by ext <;> simp

/-- C113: the equation in terms of the original variables holds exactly if the pairing product equation holds for the combinations. -/
theorem C113_ppe_holds (A : _root_.Matrix (Fin k) (Fin m) F) (B : _root_.Matrix (Fin l) (Fin n) F) (δ : Fin k → G1) (ε : Fin l → G2)
    (a : Fin l → G1) (b : Fin k → G2) (γ : _root_.Matrix (Fin k) (Fin l) F) (t : GT) (x : Fin m → G1) (y : Fin n → G2) :
    (PPE.along e A B δ ε a b γ t).Holds e (List.ofFn x) (List.ofFn y) ↔
      (⟨List.ofFn a, List.ofFn b, rows γ, t⟩ : PPE F G1 G2 GT).Holds e (List.ofFn (affine A δ x)) (List.ofFn (affine B ε y)) := by
  simp only [PPE.Holds, PPE.along]
  rw [rows_matOf, rows_matOf, equLhs_ofFn, equLhs_ofFn]
  have h := equ_along (e) A B γ δ ε a b x y
  rw [h, eq_sub_iff_add_eq]

section
variable [DecidableEq GT] {sch sch' : Scheduler}

/-- C113: a proof about the committed values is a proof about the combinations, for the pairing product equation. -/
theorem C113_ppe_verify (A : _root_.Matrix (Fin k) (Fin m) F) (B : _root_.Matrix (Fin l) (Fin n) F) (δ : Fin k → G1) (ε : Fin l → G2)
    (a : Fin l → G1) (b : Fin k → G2) (γ : _root_.Matrix (Fin k) (Fin l) F) (t : GT)  
    (hmn : (m = 0 ∨ 0 < n) ↔ (k = 0 ∨ 0 < l)) (c : Fin m → Com G1) (d : Fin n → Com G2) (r r' s s' : Matrix F)
    (pfs : List (EquProof F G1 G2)) :
    SameOutcome
      ((⟨List.ofFn a, List.ofFn b, rows γ, t⟩ : PPE F G1 G2 GT).verify e sch
        ⟨⟨List.ofFn (affine A (fun i => Com1.linearMap (δ i)) c), r⟩, ⟨List.ofFn (affine B (fun j => Com2.linearMap (ε j)) d), s⟩, pfs⟩ crs)
      ((PPE.along e A B δ ε a b γ t).verify e sch' ⟨⟨List.ofFn c, r'⟩, ⟨List.ofFn d, s'⟩, pfs⟩ crs) := by
  refine PPE.verify_same (m := k) (n := l) (m' := m) (n' := n)
    ⟨by simp, by simp, by simp [rows], by simp [rows, List.mem_ofFn]⟩
    ⟨by simp [PPE.along], by simp [PPE.along], by simp [PPE.along, rows], by simp [PPE.along, rows, List.mem_ofFn]⟩
    (by simp) (by simp) (by simp) (by simp) hmn.symm rfl fun pf => ?_
  · simp only [PPE.Equation, gsEquation, PPE.along, List.map_ofFn]
    have h := equ_along (ComT.pairL e) A B γ (fun i => (emb) (δ i)) (fun j => (emb) (ε j)) (fun j => (emb) (a j))
      (fun i => (emb) (b i)) c d
    have ht := corr_map (fun x y => (e) x y) (fun x y => ComT.pairL e x y) (emb) (emb) targetL (fun x y => by simp [targetL, ComT.pairing, emb, ComT.ext_iff]) a ε δ b γ t
    have h1 : (emb) ∘ pull B γ.transpose δ a = pull B γ.transpose (fun i => (emb) (δ i)) (fun j => (emb) (a j)) :=
      funext fun j => pull_emb ..
    have h2 : (emb) ∘ pull A γ ε b = pull A γ (fun j => (emb) (ε j)) (fun i => (emb) (b i)) :=
      funext fun j => pull_emb ..
    rw [h1, h2, rows_matOf, rows_matOf, equLhs_ofFn, equLhs_ofFn]
    exact (Eq.congr h rfl).trans (iff_shift ht)

end

/-- C113: `prove` gives the very same proof for the pairing product equation about the combinations, with the combined randomness, and for the
equation about the original variables. -/
theorem C113_ppe_prove {ρ : Type} [Rng ρ F G1 G2] (A : _root_.Matrix (Fin k) (Fin m) F) (B : _root_.Matrix (Fin l) (Fin n) F) (δ : Fin k → G1) (ε : Fin l → G2)
    (a : Fin l → G1) (b : Fin k → G2) (γ : _root_.Matrix (Fin k) (Fin l) F) (t : GT) (hmn : (0 < m ∧ 0 < n) ↔ (0 < k ∧ 0 < l)) (x : Fin m → G1) (y : Fin n → G2)
    (R : _root_.Matrix (Fin m) (Fin 2) F) (S : _root_.Matrix (Fin n) (Fin 2) F) (c c' : List (Com G1)) (d d' : List (Com G2))
    (sch sch' : Nat → Scheduler) (rng : ρ) :
    SameOutcome
      ((⟨List.ofFn a, List.ofFn b, rows γ, t⟩ : PPE F G1 G2 GT).prove sch (List.ofFn (affine A δ x)) (List.ofFn (affine B ε y))
        ⟨c', rows (A * R)⟩ ⟨d', rows (B * S)⟩ crs rng)
      ((PPE.along e A B δ ε a b γ t).prove sch' (List.ofFn x) (List.ofFn y) ⟨c, rows R⟩ ⟨d, rows S⟩ crs rng) := by
  by_cases hdom : 0 < k ∧ 0 < l ∧ crs.u.length = 2 ∧ crs.v.length = 2
  · obtain ⟨hk, hl, hu, hv⟩ := hdom
    obtain ⟨hm, hn⟩ := hmn.mpr ⟨hk, hl⟩
    obtain ⟨u0, u1, hu⟩ := List.length_eq_two.mp hu
    obtain ⟨v0, v1, hv⟩ := List.length_eq_two.mp hv
    have h1 := PPE.prove_closed (self := (⟨List.ofFn a, List.ofFn b, rows γ, t⟩ : PPE F G1 G2 GT)) (sch := sch) (xc := ⟨c', rows (A * R)⟩)
      (yc := ⟨d', rows (B * S)⟩) (crs := crs) (rng := rng) hk hl rfl rfl rfl (affine A δ x) (affine B ε y) rfl rfl hu hv (T := ![![_, _], ![_, _]]) rfl rfl
    have h2 := PPE.prove_closed (self := PPE.along e A B δ ε a b γ t) (sch := sch') (xc := ⟨c, rows R⟩)
      (yc := ⟨d, rows S⟩) (crs := crs) (rng := rng) hm hn rfl rfl rfl x y rfl rfl hu hv (T := ![![_, _], ![_, _]]) rfl rfl
    refine sameOutcome_of fun r => ?_
    rw [h1, h2]
    refine Eq.congr_left (congrArg Except.ok ?_)
    refine Prod.ext (EquProof.ext' ?_ ?_ rfl rfl) rfl
    · have e1 : (fun i => i2 (F := F) (affine B ε y i)) = affine B (fun i => i2 (F := F) (ε i)) (fun i => i2 (F := F) (y i)) := funext fun j => affine_emb ..
      have e2 : (fun i => i2 (F := F) (pull A γ ε b i)) = pull A γ (fun i => i2 (F := F) (ε i)) (fun i => i2 (F := F) (b i)) := funext fun i => pull_emb ..
      refine congrArg List.ofFn ((congrArg (fun z => piVal (fun i => i2 (F := F) (b i)) z _ _ _ _ _) e1).trans ?_)
      exact (piVal_along A B γ _ _ _ R S _ _).trans (congrArg (fun z => piVal z _ _ _ _ _ _) e2.symm)
    · have e1 : (fun i => i1 (F := F) (affine A δ x i)) = affine A (fun i => i1 (F := F) (δ i)) (fun i => i1 (F := F) (x i)) := funext fun j => affine_emb ..
      have e2 : (fun i => i1 (F := F) (pull B γ.transpose δ a i)) = pull B γ.transpose (fun i => i1 (F := F) (δ i)) (fun i => i1 (F := F) (a i)) := funext fun i => pull_emb ..
      refine congrArg List.ofFn ((congrArg (fun z => thetaVal (fun i => i1 (F := F) (a i)) z _ _ _ _) e1).trans ?_)
      exact (thetaVal_along A B γ _ _ _ S _ _).trans (congrArg (fun z => thetaVal z _ _ _ _ _) e2.symm)
  · refine sameOutcome_of fun r => ?_
    have hno : ∀ {r : Res (EquProof F G1 G2 × ρ)}, ¬ r.Ok → ∀ s, r ≠ .ok s := fun h s hs => h ⟨s, hs⟩
    refine iff_of_false (hno ?_ r) (hno ?_ r) <;> rw [PPE.prove_dom] <;> intro h <;> apply hdom
    · obtain ⟨hx, hy, -, -, -, hu, hv⟩ := h
      exact ⟨List.length_ofFn (f := affine A δ x) ▸ List.length_pos_iff.mpr hx,
        List.length_ofFn (f := affine B ε y) ▸ List.length_pos_iff.mpr hy, hu, hv⟩
    · obtain ⟨hx, hy, -, -, -, hu, hv⟩ := h
      obtain ⟨hk, hl⟩ := hmn.mp ⟨List.length_ofFn (f := x) ▸ List.length_pos_iff.mpr hx,
        List.length_ofFn (f := y) ▸ List.length_pos_iff.mpr hy⟩
      exact ⟨hk, hl, hu, hv⟩

/-- C113: if the combinations of `x` and `y` satisfy the pairing product equation, whoever knows `x` and `y` can prove it, and everyone can turn the message into one
about commitments to the combinations. -/
theorem C113_ppe [DecidableEq GT] {ρ : Type} [Rng ρ F G1 G2] (A : _root_.Matrix (Fin k) (Fin m) F) (B : _root_.Matrix (Fin l) (Fin n) F) (δ : Fin k → G1) (ε : Fin l → G2)
    (a : Fin l → G1) (b : Fin k → G2) (γ : _root_.Matrix (Fin k) (Fin l) F) (t : GT)  
    (hm : 0 < m) (hn : 0 < n) (hl : 0 < l) (x : Fin m → G1) (y : Fin n → G2) (hu : crs.u.length = 2) (hv : crs.v.length = 2)
    (h : (⟨List.ofFn a, List.ofFn b, rows γ, t⟩ : PPE F G1 G2 GT).Holds e (List.ofFn (affine A δ x)) (List.ofFn (affine B ε y)))
    (sch : Nat → Scheduler) (sch' : Scheduler) (rng : ρ) (r s : Matrix F) :
    ∃ cp rng', (PPE.along e A B δ ε a b γ t).commitAndProve sch (List.ofFn x) (List.ofFn y) crs rng = .ok (cp, rng') ∧
      ∃ c d, cp.xcoms.coms = List.ofFn c ∧ cp.ycoms.coms = List.ofFn d ∧
        (⟨List.ofFn a, List.ofFn b, rows γ, t⟩ : PPE F G1 G2 GT).verify e sch'
          ⟨⟨List.ofFn (affine A (fun i => Com1.linearMap (δ i)) c), r⟩, ⟨List.ofFn (affine B (fun j => Com2.linearMap (ε j)) d), s⟩, cp.equ_proofs⟩ crs = .ok true := by
  have hd : (PPE.along e A B δ ε a b γ t).Dims (List.ofFn x).length (List.ofFn y).length :=
    ⟨by simp [PPE.along], by simp [PPE.along], by simp [PPE.along, rows], by simp [PPE.along, rows, List.mem_ofFn]⟩
  obtain ⟨cp, rng', hp, hacc⟩ := C01_ppe_complete e (PPE.along e A B δ ε a b γ t) (List.ofFn x) (List.ofFn y) crs rng sch sch'
    (List.length_pos_iff.mp (by simpa using hm)) (List.length_pos_iff.mp (by simpa using hn)) hd hu hv
    ((C113_ppe_holds A B δ ε a b γ t x y).mpr h)
  obtain ⟨_, -, -, ha, hb, -⟩ := PPE.accept_iff.mp hacc
  rw [hd.a, List.length_ofFn] at ha
  rw [hd.b, List.length_ofFn] at hb
  obtain ⟨⟨cs, r'⟩, ⟨ds, s'⟩, pfs⟩ := cp
  dsimp only at ha hb
  subst ha hb
  refine ⟨_, _, hp, cs.get, ds.get, (List.ofFn_get cs).symm, (List.ofFn_get ds).symm, ?_⟩
  refine ((C113_ppe_verify (sch' := sch') A B δ ε a b γ t (by omega) cs.get ds.get r r' s s' pfs).1 true).mpr ?_
  rw [List.ofFn_get, List.ofFn_get]
  exact hacc

/-- C113: the equation in terms of the original variables holds exactly if the multi-scalar equation in `G1` holds for the combinations. -/
theorem C113_msmeg1_holds (A : _root_.Matrix (Fin k) (Fin m) F) (B : _root_.Matrix (Fin l) (Fin n) F) (δ : Fin k → G1) (ε : Fin l → F)
    (a : Fin l → G1) (b : Fin k → F) (γ : _root_.Matrix (Fin k) (Fin l) F) (t : G1) (x : Fin m → G1) (y : Fin n → F) :
    (MSMEG1.along A B δ ε a b γ t).Holds (List.ofFn x) (List.ofFn y) ↔
      (⟨List.ofFn a, List.ofFn b, rows γ, t⟩ : MSMEG1 F G1).Holds (List.ofFn (affine A δ x)) (List.ofFn (affine B ε y)) := by
  simp only [MSMEG1.Holds, MSMEG1.along]
  rw [rows_matOf, rows_matOf, equLhs_ofFn, equLhs_ofFn]
  have h := equ_along ((LinearMap.lsmul F G1).flip) A B γ δ ε a b x y
  simp only [LinearMap.flip_apply, LinearMap.lsmul_apply, LinearMap.mul_apply', smul_eq_mul] at h ⊢
  rw [h, eq_sub_iff_add_eq]

section
variable [DecidableEq GT] {sch sch' : Scheduler}

/-- C113: a proof about the committed values is a proof about the combinations, for the multi-scalar equation in `G1`. -/
theorem C113_msmeg1_verify (A : _root_.Matrix (Fin k) (Fin m) F) (B : _root_.Matrix (Fin l) (Fin n) F) (δ : Fin k → G1) (ε : Fin l → F)
    (a : Fin l → G1) (b : Fin k → F) (γ : _root_.Matrix (Fin k) (Fin l) F) (t : G1)  {E : Fin l → Com G2} (hE : ∀ j, Com2.scalarLinearMap (ε j) crs = .ok (E j))
    (hmn : (m = 0 ∨ 0 < n) ↔ (k = 0 ∨ 0 < l)) (c : Fin m → Com G1) (d : Fin n → Com G2) (r r' s s' : Matrix F)
    (pfs : List (EquProof F G1 G2)) :
    SameOutcome
      ((⟨List.ofFn a, List.ofFn b, rows γ, t⟩ : MSMEG1 F G1).verify e sch
        ⟨⟨List.ofFn (affine A (fun i => Com1.linearMap (δ i)) c), r⟩, ⟨List.ofFn (affine B E d), s⟩, pfs⟩ crs)
      ((MSMEG1.along A B δ ε a b γ t).verify e sch' ⟨⟨List.ofFn c, r'⟩, ⟨List.ofFn d, s'⟩, pfs⟩ crs) := by
  refine MSMEG1.verify_same (m := k) (n := l) (m' := m) (n' := n)
    ⟨by simp, by simp, by simp [rows], by simp [rows, List.mem_ofFn]⟩
    ⟨by simp [MSMEG1.along], by simp [MSMEG1.along], by simp [MSMEG1.along, rows], by simp [MSMEG1.along, rows, List.mem_ofFn]⟩
    (by simp) (by simp) (by simp) (by simp) hmn.symm rfl fun pf => ?_
  · simp only [MSMEG1.Equation, gsEquation, MSMEG1.along, List.map_ofFn]
    refine exists_congr fun v0 => exists_congr fun v1 => exists_congr fun v' => exists_congr fun t0 => exists_congr fun t' => and_congr_right fun hv => and_congr_right fun hth => ?_
    obtain rfl : E = fun j => ε j • (v1 + emb crs.g2_gen) := funext fun j => scalarMap2_eq hv (hE j)
    have h := equ_along (ComT.pairL e) A B γ (fun i => (emb) (δ i)) (fun j => (fun y => y • (v1 + emb crs.g2_gen)) (ε j)) (fun j => (emb) (a j))
      (fun i => (fun y => y • (v1 + emb crs.g2_gen)) (b i)) c d
    have ht := corr_map (fun x y => ((LinearMap.lsmul F G1).flip) x y) (fun x y => ComT.pairL e x y) (emb) (fun y => y • (v1 + emb crs.g2_gen)) ((ComT.pairL e).flip (v1 + emb crs.g2_gen) ∘ₗ i1) (fun x y => by simp [ComT.pairing, emb, ComT.ext_iff, i1_apply]) a ε δ b γ t
    have h1 : (emb) ∘ pull B γ.transpose δ a = pull B γ.transpose (fun i => (emb) (δ i)) (fun j => (emb) (a j)) :=
      funext fun j => pull_emb ..
    have h2 : (fun y => y • (v1 + emb crs.g2_gen)) ∘ pull A γ ε b = pull A γ (fun j => (fun y => y • (v1 + emb crs.g2_gen)) (ε j)) (fun i => (fun y => y • (v1 + emb crs.g2_gen)) (b i)) :=
      funext fun j => pull_smul ..
    rw [h1, h2, rows_matOf, rows_matOf, equLhs_ofFn, equLhs_ofFn]
    exact (Eq.congr h rfl).trans (iff_shift ht)

end

/-- C113: `prove` gives the very same proof for the multi-scalar equation in `G1` about the combinations, with the combined randomness, and for the
equation about the original variables. -/
theorem C113_msmeg1_prove {ρ : Type} [Rng ρ F G1 G2] (A : _root_.Matrix (Fin k) (Fin m) F) (B : _root_.Matrix (Fin l) (Fin n) F) (δ : Fin k → G1) (ε : Fin l → F)
    (a : Fin l → G1) (b : Fin k → F) (γ : _root_.Matrix (Fin k) (Fin l) F) (t : G1) (hmn : (0 < m ∧ 0 < n) ↔ (0 < k ∧ 0 < l)) (x : Fin m → G1) (y : Fin n → F)
    (R : _root_.Matrix (Fin m) (Fin 2) F) (S : _root_.Matrix (Fin n) (Fin 1) F) (c c' : List (Com G1)) (d d' : List (Com G2))
    (sch sch' : Nat → Scheduler) (rng : ρ) :
    SameOutcome
      ((⟨List.ofFn a, List.ofFn b, rows γ, t⟩ : MSMEG1 F G1).prove sch (List.ofFn (affine A δ x)) (List.ofFn (affine B ε y))
        ⟨c', rows (A * R)⟩ ⟨d', rows (B * S)⟩ crs rng)
      ((MSMEG1.along A B δ ε a b γ t).prove sch' (List.ofFn x) (List.ofFn y) ⟨c, rows R⟩ ⟨d, rows S⟩ crs rng) := by
  by_cases hdom : 0 < k ∧ 0 < l ∧ crs.u.length = 2 ∧ 2 ≤ crs.v.length
  · obtain ⟨hk, hl, hu, hv⟩ := hdom
    obtain ⟨hm, hn⟩ := hmn.mpr ⟨hk, hl⟩
    obtain ⟨u0, u1, hu⟩ := List.length_eq_two.mp hu
    obtain ⟨v0, v1, v', hv⟩ := cons2_of_length hv
    have h1 := MSMEG1.prove_closed (self := (⟨List.ofFn a, List.ofFn b, rows γ, t⟩ : MSMEG1 F G1)) (sch := sch) (xc := ⟨c', rows (A * R)⟩)
      (yc := ⟨d', rows (B * S)⟩) (crs := crs) (rng := rng) hk hl rfl rfl rfl (affine A δ x) (affine B ε y) rfl rfl hu hv (T := ![![_, _]]) rfl rfl
    have h2 := MSMEG1.prove_closed (self := MSMEG1.along A B δ ε a b γ t) (sch := sch') (xc := ⟨c, rows R⟩)
      (yc := ⟨d, rows S⟩) (crs := crs) (rng := rng) hm hn rfl rfl rfl x y rfl rfl hu hv (T := ![![_, _]]) rfl rfl
    refine sameOutcome_of fun r => ?_
    rw [h1, h2]
    refine Eq.congr_left (congrArg Except.ok ?_)
    refine Prod.ext (EquProof.ext' ?_ ?_ rfl rfl) rfl
    · have e1 : (fun i => affine B ε y i • (v1 + Com2.linearMap crs.g2_gen)) = affine B (fun i => ε i • (v1 + Com2.linearMap crs.g2_gen)) (fun i => y i • (v1 + Com2.linearMap crs.g2_gen)) := funext fun j => affine_smul ..
      have e2 : (fun i => pull A γ ε b i • (v1 + Com2.linearMap crs.g2_gen)) = pull A γ (fun i => ε i • (v1 + Com2.linearMap crs.g2_gen)) (fun i => b i • (v1 + Com2.linearMap crs.g2_gen)) := funext fun i => pull_smul ..
      refine congrArg List.ofFn ((congrArg (fun z => piVal (fun i => b i • (v1 + Com2.linearMap crs.g2_gen)) z _ _ _ _ _) e1).trans ?_)
      exact (piVal_along A B γ _ _ _ R S _ _).trans (congrArg (fun z => piVal z _ _ _ _ _ _) e2.symm)
    · have e1 : (fun i => i1 (F := F) (affine A δ x i)) = affine A (fun i => i1 (F := F) (δ i)) (fun i => i1 (F := F) (x i)) := funext fun j => affine_emb ..
      have e2 : (fun i => i1 (F := F) (pull B γ.transpose δ a i)) = pull B γ.transpose (fun i => i1 (F := F) (δ i)) (fun i => i1 (F := F) (a i)) := funext fun i => pull_emb ..
      refine congrArg List.ofFn ((congrArg (fun z => thetaVal (fun i => i1 (F := F) (a i)) z _ _ _ _) e1).trans ?_)
      exact (thetaVal_along A B γ _ _ _ S _ _).trans (congrArg (fun z => thetaVal z _ _ _ _ _) e2.symm)
  · refine sameOutcome_of fun r => ?_
    have hno : ∀ {r : Res (EquProof F G1 G2 × ρ)}, ¬ r.Ok → ∀ s, r ≠ .ok s := fun h s hs => h ⟨s, hs⟩
    refine iff_of_false (hno ?_ r) (hno ?_ r) <;> rw [MSMEG1.prove_dom] <;> intro h <;> apply hdom
    · obtain ⟨hx, hy, -, -, -, hu, hv⟩ := h
      exact ⟨List.length_ofFn (f := affine A δ x) ▸ List.length_pos_iff.mpr hx,
        List.length_ofFn (f := affine B ε y) ▸ List.length_pos_iff.mpr hy, hu, hv⟩
    · obtain ⟨hx, hy, -, -, -, hu, hv⟩ := h
      obtain ⟨hk, hl⟩ := hmn.mp ⟨List.length_ofFn (f := x) ▸ List.length_pos_iff.mpr hx,
        List.length_ofFn (f := y) ▸ List.length_pos_iff.mpr hy⟩
      exact ⟨hk, hl, hu, hv⟩

/-- C113: if the combinations of `x` and `y` satisfy the multi-scalar equation in `G1`, whoever knows `x` and `y` can prove it, and everyone can turn the message into one
about commitments to the combinations. -/
theorem C113_msmeg1 [DecidableEq GT] {ρ : Type} [Rng ρ F G1 G2] (A : _root_.Matrix (Fin k) (Fin m) F) (B : _root_.Matrix (Fin l) (Fin n) F) (δ : Fin k → G1) (ε : Fin l → F)
    (a : Fin l → G1) (b : Fin k → F) (γ : _root_.Matrix (Fin k) (Fin l) F) (t : G1)  {E : Fin l → Com G2} (hE : ∀ j, Com2.scalarLinearMap (ε j) crs = .ok (E j))
    (hm : 0 < m) (hn : 0 < n) (hl : 0 < l) (x : Fin m → G1) (y : Fin n → F) (hu : crs.u.length = 2) (hv : crs.v.length = 2)
    (h : (⟨List.ofFn a, List.ofFn b, rows γ, t⟩ : MSMEG1 F G1).Holds (List.ofFn (affine A δ x)) (List.ofFn (affine B ε y)))
    (sch : Nat → Scheduler) (sch' : Scheduler) (rng : ρ) (r s : Matrix F) :
    ∃ cp rng', (MSMEG1.along A B δ ε a b γ t).commitAndProve sch (List.ofFn x) (List.ofFn y) crs rng = .ok (cp, rng') ∧
      ∃ c d, cp.xcoms.coms = List.ofFn c ∧ cp.ycoms.coms = List.ofFn d ∧
        (⟨List.ofFn a, List.ofFn b, rows γ, t⟩ : MSMEG1 F G1).verify e sch'
          ⟨⟨List.ofFn (affine A (fun i => Com1.linearMap (δ i)) c), r⟩, ⟨List.ofFn (affine B E d), s⟩, cp.equ_proofs⟩ crs = .ok true := by
  have hd : (MSMEG1.along A B δ ε a b γ t).Dims (List.ofFn x).length (List.ofFn y).length :=
    ⟨by simp [MSMEG1.along], by simp [MSMEG1.along], by simp [MSMEG1.along, rows], by simp [MSMEG1.along, rows, List.mem_ofFn]⟩
  obtain ⟨cp, rng', hp, hacc⟩ := C02_msmeg1_complete e (MSMEG1.along A B δ ε a b γ t) (List.ofFn x) (List.ofFn y) crs rng sch sch'
    (List.length_pos_iff.mp (by simpa using hm)) (List.length_pos_iff.mp (by simpa using hn)) hd hu hv
    ((C113_msmeg1_holds A B δ ε a b γ t x y).mpr h)
  obtain ⟨_, -, -, ha, hb, -⟩ := MSMEG1.accept_iff.mp hacc
  rw [hd.a, List.length_ofFn] at ha
  rw [hd.b, List.length_ofFn] at hb
  obtain ⟨⟨cs, r'⟩, ⟨ds, s'⟩, pfs⟩ := cp
  dsimp only at ha hb
  subst ha hb
  refine ⟨_, _, hp, cs.get, ds.get, (List.ofFn_get cs).symm, (List.ofFn_get ds).symm, ?_⟩
  refine ((C113_msmeg1_verify (sch' := sch') A B δ ε a b γ t hE (by omega) cs.get ds.get r r' s s' pfs).1 true).mpr ?_
  rw [List.ofFn_get, List.ofFn_get]
  exact hacc

/-- C113: the equation in terms of the original variables holds exactly if the multi-scalar equation in `G2` holds for the combinations. -/
theorem C113_msmeg2_holds (A : _root_.Matrix (Fin k) (Fin m) F) (B : _root_.Matrix (Fin l) (Fin n) F) (δ : Fin k → F) (ε : Fin l → G2)
    (a : Fin l → F) (b : Fin k → G2) (γ : _root_.Matrix (Fin k) (Fin l) F) (t : G2) (x : Fin m → F) (y : Fin n → G2) :
    (MSMEG2.along A B δ ε a b γ t).Holds (List.ofFn x) (List.ofFn y) ↔
      (⟨List.ofFn a, List.ofFn b, rows γ, t⟩ : MSMEG2 F G2).Holds (List.ofFn (affine A δ x)) (List.ofFn (affine B ε y)) := by
  simp only [MSMEG2.Holds, MSMEG2.along]
  rw [rows_matOf, rows_matOf, equLhs_ofFn, equLhs_ofFn]
  have h := equ_along (LinearMap.lsmul F G2) A B γ δ ε a b x y
  simp only [LinearMap.flip_apply, LinearMap.lsmul_apply, LinearMap.mul_apply', smul_eq_mul] at h ⊢
  rw [h, eq_sub_iff_add_eq]

section
variable [DecidableEq GT] {sch sch' : Scheduler}

/-- C113: a proof about the committed values is a proof about the combinations, for the multi-scalar equation in `G2`. -/
theorem C113_msmeg2_verify (A : _root_.Matrix (Fin k) (Fin m) F) (B : _root_.Matrix (Fin l) (Fin n) F) (δ : Fin k → F) (ε : Fin l → G2)
    (a : Fin l → F) (b : Fin k → G2) (γ : _root_.Matrix (Fin k) (Fin l) F) (t : G2) {D : Fin k → Com G1} (hD : ∀ i, Com1.scalarLinearMap (δ i) crs = .ok (D i)) 
    (hmn : (m = 0 ∨ 0 < n) ↔ (k = 0 ∨ 0 < l)) (c : Fin m → Com G1) (d : Fin n → Com G2) (r r' s s' : Matrix F)
    (pfs : List (EquProof F G1 G2)) :
    SameOutcome
      ((⟨List.ofFn a, List.ofFn b, rows γ, t⟩ : MSMEG2 F G2).verify e sch
        ⟨⟨List.ofFn (affine A D c), r⟩, ⟨List.ofFn (affine B (fun j => Com2.linearMap (ε j)) d), s⟩, pfs⟩ crs)
      ((MSMEG2.along A B δ ε a b γ t).verify e sch' ⟨⟨List.ofFn c, r'⟩, ⟨List.ofFn d, s'⟩, pfs⟩ crs) := by
  refine MSMEG2.verify_same (m := k) (n := l) (m' := m) (n' := n)
    ⟨by simp, by simp, by simp [rows], by simp [rows, List.mem_ofFn]⟩
    ⟨by simp [MSMEG2.along], by simp [MSMEG2.along], by simp [MSMEG2.along, rows], by simp [MSMEG2.along, rows, List.mem_ofFn]⟩
    (by simp) (by simp) (by simp) (by simp) hmn.symm rfl fun pf => ?_
  · simp only [MSMEG2.Equation, gsEquation, MSMEG2.along, List.map_ofFn]
    refine exists_congr fun u0 => exists_congr fun u1 => exists_congr fun u' => exists_congr fun p0 => exists_congr fun p' => and_congr_right fun hu => and_congr_right fun hp => ?_
    obtain rfl : D = fun i => δ i • (u1 + emb crs.g1_gen) := funext fun i => scalarMap1_eq hu (hD i)
    have h := equ_along (ComT.pairL e) A B γ (fun i => (fun x => x • (u1 + emb crs.g1_gen)) (δ i)) (fun j => (emb) (ε j)) (fun j => (fun x => x • (u1 + emb crs.g1_gen)) (a j))
      (fun i => (emb) (b i)) c d
    have ht := corr_map (fun x y => (LinearMap.lsmul F G2) x y) (fun x y => ComT.pairL e x y) (fun x => x • (u1 + emb crs.g1_gen)) (emb) (ComT.pairL e (u1 + emb crs.g1_gen) ∘ₗ i2) (fun x y => by simp [ComT.pairing, emb, ComT.ext_iff, i2_apply]) a ε δ b γ t
    have h1 : (fun x => x • (u1 + emb crs.g1_gen)) ∘ pull B γ.transpose δ a = pull B γ.transpose (fun i => (fun x => x • (u1 + emb crs.g1_gen)) (δ i)) (fun j => (fun x => x • (u1 + emb crs.g1_gen)) (a j)) :=
      funext fun j => pull_smul ..
    have h2 : (emb) ∘ pull A γ ε b = pull A γ (fun j => (emb) (ε j)) (fun i => (emb) (b i)) :=
      funext fun j => pull_emb ..
    rw [h1, h2, rows_matOf, rows_matOf, equLhs_ofFn, equLhs_ofFn]
    exact (Eq.congr h rfl).trans (iff_shift ht)

end

/-- C113: `prove` gives the very same proof for the multi-scalar equation in `G2` about the combinations, with the combined randomness, and for the
equation about the original variables. -/
theorem C113_msmeg2_prove {ρ : Type} [Rng ρ F G1 G2] (A : _root_.Matrix (Fin k) (Fin m) F) (B : _root_.Matrix (Fin l) (Fin n) F) (δ : Fin k → F) (ε : Fin l → G2)
    (a : Fin l → F) (b : Fin k → G2) (γ : _root_.Matrix (Fin k) (Fin l) F) (t : G2) (hmn : (0 < m ∧ 0 < n) ↔ (0 < k ∧ 0 < l)) (x : Fin m → F) (y : Fin n → G2)
    (R : _root_.Matrix (Fin m) (Fin 1) F) (S : _root_.Matrix (Fin n) (Fin 2) F) (c c' : List (Com G1)) (d d' : List (Com G2))
    (sch sch' : Nat → Scheduler) (rng : ρ) :
    SameOutcome
      ((⟨List.ofFn a, List.ofFn b, rows γ, t⟩ : MSMEG2 F G2).prove sch (List.ofFn (affine A δ x)) (List.ofFn (affine B ε y))
        ⟨c', rows (A * R)⟩ ⟨d', rows (B * S)⟩ crs rng)
      ((MSMEG2.along A B δ ε a b γ t).prove sch' (List.ofFn x) (List.ofFn y) ⟨c, rows R⟩ ⟨d, rows S⟩ crs rng) := by
  by_cases hdom : 0 < k ∧ 0 < l ∧ 2 ≤ crs.u.length ∧ crs.v.length = 2
  · obtain ⟨hk, hl, hu, hv⟩ := hdom
    obtain ⟨hm, hn⟩ := hmn.mpr ⟨hk, hl⟩
    obtain ⟨u0, u1, u', hu⟩ := cons2_of_length hu
    obtain ⟨v0, v1, hv⟩ := List.length_eq_two.mp hv
    have h1 := MSMEG2.prove_closed (self := (⟨List.ofFn a, List.ofFn b, rows γ, t⟩ : MSMEG2 F G2)) (sch := sch) (xc := ⟨c', rows (A * R)⟩)
      (yc := ⟨d', rows (B * S)⟩) (crs := crs) (rng := rng) hk hl rfl rfl rfl (affine A δ x) (affine B ε y) rfl rfl hu hv (T := ![![_], ![_]]) rfl rfl
    have h2 := MSMEG2.prove_closed (self := MSMEG2.along A B δ ε a b γ t) (sch := sch') (xc := ⟨c, rows R⟩)
      (yc := ⟨d, rows S⟩) (crs := crs) (rng := rng) hm hn rfl rfl rfl x y rfl rfl hu hv (T := ![![_], ![_]]) rfl rfl
    refine sameOutcome_of fun r => ?_
    rw [h1, h2]
    refine Eq.congr_left (congrArg Except.ok ?_)
    refine Prod.ext (EquProof.ext' ?_ ?_ rfl rfl) rfl
    · have e1 : (fun i => i2 (F := F) (affine B ε y i)) = affine B (fun i => i2 (F := F) (ε i)) (fun i => i2 (F := F) (y i)) := funext fun j => affine_emb ..
      have e2 : (fun i => i2 (F := F) (pull A γ ε b i)) = pull A γ (fun i => i2 (F := F) (ε i)) (fun i => i2 (F := F) (b i)) := funext fun i => pull_emb ..
      refine congrArg List.ofFn ((congrArg (fun z => piVal (fun i => i2 (F := F) (b i)) z _ _ _ _ _) e1).trans ?_)
      exact (piVal_along A B γ _ _ _ R S _ _).trans (congrArg (fun z => piVal z _ _ _ _ _ _) e2.symm)
    · have e1 : (fun i => affine A δ x i • (u1 + Com1.linearMap crs.g1_gen)) = affine A (fun i => δ i • (u1 + Com1.linearMap crs.g1_gen)) (fun i => x i • (u1 + Com1.linearMap crs.g1_gen)) := funext fun j => affine_smul ..
      have e2 : (fun i => pull B γ.transpose δ a i • (u1 + Com1.linearMap crs.g1_gen)) = pull B γ.transpose (fun i => δ i • (u1 + Com1.linearMap crs.g1_gen)) (fun i => a i • (u1 + Com1.linearMap crs.g1_gen)) := funext fun i => pull_smul ..
      refine congrArg List.ofFn ((congrArg (fun z => thetaVal (fun i => a i • (u1 + Com1.linearMap crs.g1_gen)) z _ _ _ _) e1).trans ?_)
      exact (thetaVal_along A B γ _ _ _ S _ _).trans (congrArg (fun z => thetaVal z _ _ _ _ _) e2.symm)
  · refine sameOutcome_of fun r => ?_
    have hno : ∀ {r : Res (EquProof F G1 G2 × ρ)}, ¬ r.Ok → ∀ s, r ≠ .ok s := fun h s hs => h ⟨s, hs⟩
    refine iff_of_false (hno ?_ r) (hno ?_ r) <;> rw [MSMEG2.prove_dom] <;> intro h <;> apply hdom
    · obtain ⟨hx, hy, -, -, -, hu, hv⟩ := h
      exact ⟨List.length_ofFn (f := affine A δ x) ▸ List.length_pos_iff.mpr hx,
        List.length_ofFn (f := affine B ε y) ▸ List.length_pos_iff.mpr hy, hu, hv⟩
    · obtain ⟨hx, hy, -, -, -, hu, hv⟩ := h
      obtain ⟨hk, hl⟩ := hmn.mp ⟨List.length_ofFn (f := x) ▸ List.length_pos_iff.mpr hx,
        List.length_ofFn (f := y) ▸ List.length_pos_iff.mpr hy⟩
      exact ⟨hk, hl, hu, hv⟩

/-- C113: if the combinations of `x` and `y` satisfy the multi-scalar equation in `G2`, whoever knows `x` and `y` can prove it, and everyone can turn the message into one
about commitments to the combinations. -/
theorem C113_msmeg2 [DecidableEq GT] {ρ : Type} [Rng ρ F G1 G2] (A : _root_.Matrix (Fin k) (Fin m) F) (B : _root_.Matrix (Fin l) (Fin n) F) (δ : Fin k → F) (ε : Fin l → G2)
    (a : Fin l → F) (b : Fin k → G2) (γ : _root_.Matrix (Fin k) (Fin l) F) (t : G2) {D : Fin k → Com G1} (hD : ∀ i, Com1.scalarLinearMap (δ i) crs = .ok (D i)) 
    (hm : 0 < m) (hn : 0 < n) (hl : 0 < l) (x : Fin m → F) (y : Fin n → G2) (hu : crs.u.length = 2) (hv : crs.v.length = 2)
    (h : (⟨List.ofFn a, List.ofFn b, rows γ, t⟩ : MSMEG2 F G2).Holds (List.ofFn (affine A δ x)) (List.ofFn (affine B ε y)))
    (sch : Nat → Scheduler) (sch' : Scheduler) (rng : ρ) (r s : Matrix F) :
    ∃ cp rng', (MSMEG2.along A B δ ε a b γ t).commitAndProve sch (List.ofFn x) (List.ofFn y) crs rng = .ok (cp, rng') ∧
      ∃ c d, cp.xcoms.coms = List.ofFn c ∧ cp.ycoms.coms = List.ofFn d ∧
        (⟨List.ofFn a, List.ofFn b, rows γ, t⟩ : MSMEG2 F G2).verify e sch'
          ⟨⟨List.ofFn (affine A D c), r⟩, ⟨List.ofFn (affine B (fun j => Com2.linearMap (ε j)) d), s⟩, cp.equ_proofs⟩ crs = .ok true := by
  have hd : (MSMEG2.along A B δ ε a b γ t).Dims (List.ofFn x).length (List.ofFn y).length :=
    ⟨by simp [MSMEG2.along], by simp [MSMEG2.along], by simp [MSMEG2.along, rows], by simp [MSMEG2.along, rows, List.mem_ofFn]⟩
  obtain ⟨cp, rng', hp, hacc⟩ := C03_msmeg2_complete e (MSMEG2.along A B δ ε a b γ t) (List.ofFn x) (List.ofFn y) crs rng sch sch'
    (List.length_pos_iff.mp (by simpa using hm)) (List.length_pos_iff.mp (by simpa using hn)) hd hu hv
    ((C113_msmeg2_holds A B δ ε a b γ t x y).mpr h)
  obtain ⟨_, -, -, ha, hb, -⟩ := MSMEG2.accept_iff.mp hacc
  rw [hd.a, List.length_ofFn] at ha
  rw [hd.b, List.length_ofFn] at hb
  obtain ⟨⟨cs, r'⟩, ⟨ds, s'⟩, pfs⟩ := cp
  dsimp only at ha hb
  subst ha hb
  refine ⟨_, _, hp, cs.get, ds.get, (List.ofFn_get cs).symm, (List.ofFn_get ds).symm, ?_⟩
  refine ((C113_msmeg2_verify (sch' := sch') A B δ ε a b γ t hD (by omega) cs.get ds.get r r' s s' pfs).1 true).mpr ?_
  rw [List.ofFn_get, List.ofFn_get]
  exact hacc

/-- C113: the equation in terms of the original variables holds exactly if the quadratic equation holds for the combinations. -/
theorem C113_quad_holds (A : _root_.Matrix (Fin k) (Fin m) F) (B : _root_.Matrix (Fin l) (Fin n) F) (δ : Fin k → F) (ε : Fin l → F)
    (a : Fin l → F) (b : Fin k → F) (γ : _root_.Matrix (Fin k) (Fin l) F) (t : F) (x : Fin m → F) (y : Fin n → F) :
    (QuadEqu.along A B δ ε a b γ t).Holds (List.ofFn x) (List.ofFn y) ↔
      (⟨List.ofFn a, List.ofFn b, rows γ, t⟩ : QuadEqu F).Holds (List.ofFn (affine A δ x)) (List.ofFn (affine B ε y)) := by
  simp only [QuadEqu.Holds, QuadEqu.along]
  rw [rows_matOf, rows_matOf, equLhs_ofFn, equLhs_ofFn]
  have h := equ_along (LinearMap.mul F F) A B γ δ ε a b x y
  simp only [LinearMap.flip_apply, LinearMap.lsmul_apply, LinearMap.mul_apply', smul_eq_mul] at h ⊢
  rw [h, eq_sub_iff_add_eq]

section
variable [DecidableEq GT] {sch sch' : Scheduler}

/-- C113: a proof about the committed values is a proof about the combinations, for the quadratic equation. -/
theorem C113_quad_verify (A : _root_.Matrix (Fin k) (Fin m) F) (B : _root_.Matrix (Fin l) (Fin n) F) (δ : Fin k → F) (ε : Fin l → F)
    (a : Fin l → F) (b : Fin k → F) (γ : _root_.Matrix (Fin k) (Fin l) F) (t : F) {D : Fin k → Com G1} (hD : ∀ i, Com1.scalarLinearMap (δ i) crs = .ok (D i)) {E : Fin l → Com G2} (hE : ∀ j, Com2.scalarLinearMap (ε j) crs = .ok (E j))
    (hmn : (m = 0 ∨ 0 < n) ↔ (k = 0 ∨ 0 < l)) (c : Fin m → Com G1) (d : Fin n → Com G2) (r r' s s' : Matrix F)
    (pfs : List (EquProof F G1 G2)) :
    SameOutcome
      ((⟨List.ofFn a, List.ofFn b, rows γ, t⟩ : QuadEqu F).verify e sch
        ⟨⟨List.ofFn (affine A D c), r⟩, ⟨List.ofFn (affine B E d), s⟩, pfs⟩ crs)
      ((QuadEqu.along A B δ ε a b γ t).verify e sch' ⟨⟨List.ofFn c, r'⟩, ⟨List.ofFn d, s'⟩, pfs⟩ crs) := by
  refine QuadEqu.verify_same (m := k) (n := l) (m' := m) (n' := n)
    ⟨by simp, by simp, by simp [rows], by simp [rows, List.mem_ofFn]⟩
    ⟨by simp [QuadEqu.along], by simp [QuadEqu.along], by simp [QuadEqu.along, rows], by simp [QuadEqu.along, rows, List.mem_ofFn]⟩
    (by simp) (by simp) (by simp) (by simp) hmn.symm rfl fun pf => ?_
  · simp only [QuadEqu.Equation, gsEquation, QuadEqu.along, List.map_ofFn]
    refine exists_congr fun u0 => exists_congr fun u1 => exists_congr fun u' => exists_congr fun v0 => exists_congr fun v1 => exists_congr fun v' => exists_congr fun p0 => exists_congr fun p' => exists_congr fun t0 => exists_congr fun t' => and_congr_right fun hu => and_congr_right fun hv => and_congr_right fun hp => and_congr_right fun hth => ?_
    obtain rfl : D = fun i => δ i • (u1 + emb crs.g1_gen) := funext fun i => scalarMap1_eq hu (hD i)
    obtain rfl : E = fun j => ε j • (v1 + emb crs.g2_gen) := funext fun j => scalarMap2_eq hv (hE j)
    have h := equ_along (ComT.pairL e) A B γ (fun i => (fun x => x • (u1 + emb crs.g1_gen)) (δ i)) (fun j => (fun y => y • (v1 + emb crs.g2_gen)) (ε j)) (fun j => (fun x => x • (u1 + emb crs.g1_gen)) (a j))
      (fun i => (fun y => y • (v1 + emb crs.g2_gen)) (b i)) c d
    have ht := corr_map (fun x y => (LinearMap.mul F F) x y) (fun x y => ComT.pairL e x y) (fun x => x • (u1 + emb crs.g1_gen)) (fun y => y • (v1 + emb crs.g2_gen)) (LinearMap.toSpanSingleton F (ComT GT) (ComT.pairL e (u1 + emb crs.g1_gen) (v1 + emb crs.g2_gen))) (fun x y => by simp only [map_smul, LinearMap.smul_apply, LinearMap.toSpanSingleton_apply, LinearMap.mul_apply', mul_smul, smul_comm x y]) a ε δ b γ t
    have h1 : (fun x => x • (u1 + emb crs.g1_gen)) ∘ pull B γ.transpose δ a = pull B γ.transpose (fun i => (fun x => x • (u1 + emb crs.g1_gen)) (δ i)) (fun j => (fun x => x • (u1 + emb crs.g1_gen)) (a j)) :=
      funext fun j => pull_smul ..
    have h2 : (fun y => y • (v1 + emb crs.g2_gen)) ∘ pull A γ ε b = pull A γ (fun j => (fun y => y • (v1 + emb crs.g2_gen)) (ε j)) (fun i => (fun y => y • (v1 + emb crs.g2_gen)) (b i)) :=
      funext fun j => pull_smul ..
    rw [h1, h2, rows_matOf, rows_matOf, equLhs_ofFn, equLhs_ofFn]
    exact (Eq.congr h rfl).trans (iff_shift ht)

end

/-- C113: `prove` gives the very same proof for the quadratic equation about the combinations, with the combined randomness, and for the
equation about the original variables. -/
theorem C113_quad_prove {ρ : Type} [Rng ρ F G1 G2] (A : _root_.Matrix (Fin k) (Fin m) F) (B : _root_.Matrix (Fin l) (Fin n) F) (δ : Fin k → F) (ε : Fin l → F)
    (a : Fin l → F) (b : Fin k → F) (γ : _root_.Matrix (Fin k) (Fin l) F) (t : F) (hmn : (0 < m ∧ 0 < n) ↔ (0 < k ∧ 0 < l)) (x : Fin m → F) (y : Fin n → F)
    (R : _root_.Matrix (Fin m) (Fin 1) F) (S : _root_.Matrix (Fin n) (Fin 1) F) (c c' : List (Com G1)) (d d' : List (Com G2))
    (sch sch' : Nat → Scheduler) (rng : ρ) :
    SameOutcome
      ((⟨List.ofFn a, List.ofFn b, rows γ, t⟩ : QuadEqu F).prove sch (List.ofFn (affine A δ x)) (List.ofFn (affine B ε y))
        ⟨c', rows (A * R)⟩ ⟨d', rows (B * S)⟩ crs rng)
      ((QuadEqu.along A B δ ε a b γ t).prove sch' (List.ofFn x) (List.ofFn y) ⟨c, rows R⟩ ⟨d, rows S⟩ crs rng) := by
  by_cases hdom : 0 < k ∧ 0 < l ∧ 2 ≤ crs.u.length ∧ 2 ≤ crs.v.length
  · obtain ⟨hk, hl, hu, hv⟩ := hdom
    obtain ⟨hm, hn⟩ := hmn.mpr ⟨hk, hl⟩
    obtain ⟨u0, u1, u', hu⟩ := cons2_of_length hu
    obtain ⟨v0, v1, v', hv⟩ := cons2_of_length hv
    have h1 := QuadEqu.prove_closed (self := (⟨List.ofFn a, List.ofFn b, rows γ, t⟩ : QuadEqu F)) (sch := sch) (xc := ⟨c', rows (A * R)⟩)
      (yc := ⟨d', rows (B * S)⟩) (crs := crs) (rng := rng) hk hl rfl rfl rfl (affine A δ x) (affine B ε y) rfl rfl hu hv (T := ![![_]]) rfl rfl
    have h2 := QuadEqu.prove_closed (self := QuadEqu.along A B δ ε a b γ t) (sch := sch') (xc := ⟨c, rows R⟩)
      (yc := ⟨d, rows S⟩) (crs := crs) (rng := rng) hm hn rfl rfl rfl x y rfl rfl hu hv (T := ![![_]]) rfl rfl
    refine sameOutcome_of fun r => ?_
    rw [h1, h2]
    refine Eq.congr_left (congrArg Except.ok ?_)
    refine Prod.ext (EquProof.ext' ?_ ?_ rfl rfl) rfl
    · have e1 : (fun i => affine B ε y i • (v1 + Com2.linearMap crs.g2_gen)) = affine B (fun i => ε i • (v1 + Com2.linearMap crs.g2_gen)) (fun i => y i • (v1 + Com2.linearMap crs.g2_gen)) := funext fun j => affine_smul ..
      have e2 : (fun i => pull A γ ε b i • (v1 + Com2.linearMap crs.g2_gen)) = pull A γ (fun i => ε i • (v1 + Com2.linearMap crs.g2_gen)) (fun i => b i • (v1 + Com2.linearMap crs.g2_gen)) := funext fun i => pull_smul ..
      refine congrArg List.ofFn ((congrArg (fun z => piVal (fun i => b i • (v1 + Com2.linearMap crs.g2_gen)) z _ _ _ _ _) e1).trans ?_)
      exact (piVal_along A B γ _ _ _ R S _ _).trans (congrArg (fun z => piVal z _ _ _ _ _ _) e2.symm)
    · have e1 : (fun i => affine A δ x i • (u1 + Com1.linearMap crs.g1_gen)) = affine A (fun i => δ i • (u1 + Com1.linearMap crs.g1_gen)) (fun i => x i • (u1 + Com1.linearMap crs.g1_gen)) := funext fun j => affine_smul ..
      have e2 : (fun i => pull B γ.transpose δ a i • (u1 + Com1.linearMap crs.g1_gen)) = pull B γ.transpose (fun i => δ i • (u1 + Com1.linearMap crs.g1_gen)) (fun i => a i • (u1 + Com1.linearMap crs.g1_gen)) := funext fun i => pull_smul ..
      refine congrArg List.ofFn ((congrArg (fun z => thetaVal (fun i => a i • (u1 + Com1.linearMap crs.g1_gen)) z _ _ _ _) e1).trans ?_)
      exact (thetaVal_along A B γ _ _ _ S _ _).trans (congrArg (fun z => thetaVal z _ _ _ _ _) e2.symm)
  · refine sameOutcome_of fun r => ?_
    have hno : ∀ {r : Res (EquProof F G1 G2 × ρ)}, ¬ r.Ok → ∀ s, r ≠ .ok s := fun h s hs => h ⟨s, hs⟩
    refine iff_of_false (hno ?_ r) (hno ?_ r) <;> rw [QuadEqu.prove_dom] <;> intro h <;> apply hdom
    · obtain ⟨hx, hy, -, -, -, hu, hv⟩ := h
      exact ⟨List.length_ofFn (f := affine A δ x) ▸ List.length_pos_iff.mpr hx,
        List.length_ofFn (f := affine B ε y) ▸ List.length_pos_iff.mpr hy, hu, hv⟩
    · obtain ⟨hx, hy, -, -, -, hu, hv⟩ := h
      obtain ⟨hk, hl⟩ := hmn.mp ⟨List.length_ofFn (f := x) ▸ List.length_pos_iff.mpr hx,
        List.length_ofFn (f := y) ▸ List.length_pos_iff.mpr hy⟩
      exact ⟨hk, hl, hu, hv⟩

/-- C113: if the combinations of `x` and `y` satisfy the quadratic equation, whoever knows `x` and `y` can prove it, and everyone can turn the message into one
about commitments to the combinations. -/
theorem C113_quad [DecidableEq GT] {ρ : Type} [Rng ρ F G1 G2] (A : _root_.Matrix (Fin k) (Fin m) F) (B : _root_.Matrix (Fin l) (Fin n) F) (δ : Fin k → F) (ε : Fin l → F)
    (a : Fin l → F) (b : Fin k → F) (γ : _root_.Matrix (Fin k) (Fin l) F) (t : F) {D : Fin k → Com G1} (hD : ∀ i, Com1.scalarLinearMap (δ i) crs = .ok (D i)) {E : Fin l → Com G2} (hE : ∀ j, Com2.scalarLinearMap (ε j) crs = .ok (E j))
    (hm : 0 < m) (hn : 0 < n) (hl : 0 < l) (x : Fin m → F) (y : Fin n → F) (hu : crs.u.length = 2) (hv : crs.v.length = 2)
    (h : (⟨List.ofFn a, List.ofFn b, rows γ, t⟩ : QuadEqu F).Holds (List.ofFn (affine A δ x)) (List.ofFn (affine B ε y)))
    (sch : Nat → Scheduler) (sch' : Scheduler) (rng : ρ) (r s : Matrix F) :
    ∃ cp rng', (QuadEqu.along A B δ ε a b γ t).commitAndProve sch (List.ofFn x) (List.ofFn y) crs rng = .ok (cp, rng') ∧
      ∃ c d, cp.xcoms.coms = List.ofFn c ∧ cp.ycoms.coms = List.ofFn d ∧
        (⟨List.ofFn a, List.ofFn b, rows γ, t⟩ : QuadEqu F).verify e sch'
          ⟨⟨List.ofFn (affine A D c), r⟩, ⟨List.ofFn (affine B E d), s⟩, cp.equ_proofs⟩ crs = .ok true := by
  have hd : (QuadEqu.along A B δ ε a b γ t).Dims (List.ofFn x).length (List.ofFn y).length :=
    ⟨by simp [QuadEqu.along], by simp [QuadEqu.along], by simp [QuadEqu.along, rows], by simp [QuadEqu.along, rows, List.mem_ofFn]⟩
  obtain ⟨cp, rng', hp, hacc⟩ := C04_quad_complete e (QuadEqu.along A B δ ε a b γ t) (List.ofFn x) (List.ofFn y) crs rng sch sch'
    (List.length_pos_iff.mp (by simpa using hm)) (List.length_pos_iff.mp (by simpa using hn)) hd hu hv
    ((C113_quad_holds A B δ ε a b γ t x y).mpr h)
  obtain ⟨_, -, -, ha, hb, -⟩ := QuadEqu.accept_iff.mp hacc
  rw [hd.a, List.length_ofFn] at ha
  rw [hd.b, List.length_ofFn] at hb
  obtain ⟨⟨cs, r'⟩, ⟨ds, s'⟩, pfs⟩ := cp
  dsimp only at ha hb
  subst ha hb
  refine ⟨_, _, hp, cs.get, ds.get, (List.ofFn_get cs).symm, (List.ofFn_get ds).symm, ?_⟩
  refine ((C113_quad_verify (sch' := sch') A B δ ε a b γ t hD hE (by omega) cs.get ds.get r r' s s' pfs).1 true).mpr ?_
  rw [List.ofFn_get, List.ofFn_get]
  exact hacc

namespace Ex

def A7 : _root_.Matrix (Fin 1) (Fin 1) K := !![2]
def B7 : _root_.Matrix (Fin 2) (Fin 2) K := !![1, 1; 0, 1]
def row7 : _root_.Matrix (Fin 1) (Fin 2) K := !![3, 1]
theorem d7x : List.ofFn (affine A7 ![3] ![(3 : K)]) = [2] := by decide
theorem d7y : List.ofFn (affine B7 ![0, 1] ![0, (3 : K)]) = [3, 4] := by decide

/-- Commitments to the values 2 and 5 give one to `3 · 2 + 5 + 1`. -/
example {c0 c1 : Com K} {R : _root_.Matrix (Fin 2) (Fin 2) K} (h : Commit.OpensGroup crs7.u ⟨[c0, c1], rows R⟩ [2, 5]) :
    Commit.OpensGroup crs7.u ⟨List.ofFn (affine row7 (fun i => ⟨0, ![1] i⟩) ![c0, c1]), rows (row7 * R)⟩ [5] := by
  have hv : List.ofFn (affine row7 ![1] ![(2 : K), 5]) = [5] := by decide
  exact hv ▸ C113_opens_group row7 ![1] (c := ![c0, c1]) (x := ![2, 5]) h

/-- Commitments made by the library. -/
example : Commit.OpensGroup crs7.u ⟨List.ofFn (affine A7 (fun i => ⟨0, ![3] i⟩) fun _ => ppe7_msg.xcoms.coms.getD 0 0), rows (A7 * (!![1, 2] : _root_.Matrix (Fin 1) (Fin 2) K))⟩
    (List.ofFn (affine A7 ![3] ![2])) :=
  C113_opens_group A7 ![3] (c := fun _ => ppe7_msg.xcoms.coms.getD 0 0) (x := ![2]) (R := !![1, 2]) ppe7_xopens

example {u0 u1 : Com K} {c0 c1 : Com K} {R : _root_.Matrix (Fin 2) (Fin 1) K} (h : Commit.OpensScalar [u0, u1] 1 ⟨[c0, c1], rows R⟩ [(2 : K), 5]) :=
  C113_opens_scalar row7 ![1] (c := ![c0, c1]) (x := ![2, 5]) h

/-- The equation of `ppe7` about `2 x + 3` and `(y0 + y1, y1 + 1)`. -/
example : (PPE.along e7 A7 B7 ![3] ![0, 1] ![1, 2] ![5] !![1, 2] 1).Holds e7 [3] [0, 3] :=
  (C113_ppe_holds A7 B7 ![3] ![0, 1] ![1, 2] ![5] !![1, 2] 1 ![3] ![0, 3]).mpr (by rw [d7x, d7y]; exact ppe7_holds)

example (sch : Nat → Scheduler) (sch' : Scheduler) :=
  C113_ppe (e := e7) (crs := crs7) A7 B7 ![3] ![0, 1] ![1, 2] ![5] !![1, 2] 1 (by decide) (by decide) (by decide) ![3] ![0, 3] rfl rfl
    (by rw [d7x, d7y]; exact ppe7_holds) sch sch' (0 : Nat) [] []

example (c : Fin 1 → Com K) (d : Fin 2 → Com K) (pfs : List (EquProof K K K)) (sch : Scheduler) :=
  C113_ppe_verify (e := e7) (crs := crs7) (sch := sch) (sch' := sch) A7 B7 ![3] ![0, 1] ![1, 2] ![5] !![1, 2] 1 (by decide) c d [] [] [] [] pfs

example (R : _root_.Matrix (Fin 1) (Fin 2) K) (S : _root_.Matrix (Fin 2) (Fin 2) K) (sch : Nat → Scheduler) :=
  C113_ppe_prove (e := e7) (G1 := K) (G2 := K) (crs := crs7) A7 B7 ![3] ![0, 1] ![1, 2] ![5] !![1, 2] 1 (by decide) ![3] ![0, 3] R S [] [] [] [] sch sch (0 : Nat)

/-- The equation of `msm1_7` about `2 x + 3` and `(y0 + y1, y1 + 1)`. -/
example : (MSMEG1.along A7 B7 ![3] ![0, 1] ![1, 2] ![5] !![1, 2] 1 : MSMEG1 K K).Holds [3] [0, 3] :=
  (C113_msmeg1_holds A7 B7 ![3] ![0, 1] ![1, 2] ![5] !![1, 2] 1 ![3] ![0, 3]).mpr (by rw [d7x, d7y]; exact msm1_7_holds)

example (sch : Nat → Scheduler) (sch' : Scheduler) :=
  C113_msmeg1 (e := e7) (crs := crs7) A7 B7 ![3] ![0, 1] ![1, 2] ![5] !![1, 2] 1 (fun _ => rfl) (by decide) (by decide) (by decide) ![3] ![0, 3] rfl rfl
    (by rw [d7x, d7y]; exact msm1_7_holds) sch sch' (0 : Nat) [] []

example (c : Fin 1 → Com K) (d : Fin 2 → Com K) (pfs : List (EquProof K K K)) (sch : Scheduler) :=
  C113_msmeg1_verify (e := e7) (crs := crs7) (sch := sch) (sch' := sch) A7 B7 ![3] ![0, 1] ![1, 2] ![5] !![1, 2] 1 (fun _ => rfl) (by decide) c d [] [] [] [] pfs

example (R : _root_.Matrix (Fin 1) (Fin 2) K) (S : _root_.Matrix (Fin 2) (Fin 1) K) (sch : Nat → Scheduler) :=
  C113_msmeg1_prove (GT := K) (G1 := K) (G2 := K) (crs := crs7) A7 B7 ![3] ![0, 1] ![1, 2] ![5] !![1, 2] 1 (by decide) ![3] ![0, 3] R S [] [] [] [] sch sch (0 : Nat)

/-- The equation of `msm2_7` about `2 x + 3` and `(y0 + y1, y1 + 1)`. -/
example : (MSMEG2.along A7 B7 ![3] ![0, 1] ![1, 2] ![5] !![1, 2] 1 : MSMEG2 K K).Holds [3] [0, 3] :=
  (C113_msmeg2_holds A7 B7 ![3] ![0, 1] ![1, 2] ![5] !![1, 2] 1 ![3] ![0, 3]).mpr (by rw [d7x, d7y]; exact msm2_7_holds)

example (sch : Nat → Scheduler) (sch' : Scheduler) :=
  C113_msmeg2 (e := e7) (crs := crs7) A7 B7 ![3] ![0, 1] ![1, 2] ![5] !![1, 2] 1 (fun _ => rfl) (by decide) (by decide) (by decide) ![3] ![0, 3] rfl rfl
    (by rw [d7x, d7y]; exact msm2_7_holds) sch sch' (0 : Nat) [] []

example (c : Fin 1 → Com K) (d : Fin 2 → Com K) (pfs : List (EquProof K K K)) (sch : Scheduler) :=
  C113_msmeg2_verify (e := e7) (crs := crs7) (sch := sch) (sch' := sch) A7 B7 ![3] ![0, 1] ![1, 2] ![5] !![1, 2] 1 (fun _ => rfl) (by decide) c d [] [] [] [] pfs

example (R : _root_.Matrix (Fin 1) (Fin 1) K) (S : _root_.Matrix (Fin 2) (Fin 2) K) (sch : Nat → Scheduler) :=
  C113_msmeg2_prove (GT := K) (G1 := K) (G2 := K) (crs := crs7) A7 B7 ![3] ![0, 1] ![1, 2] ![5] !![1, 2] 1 (by decide) ![3] ![0, 3] R S [] [] [] [] sch sch (0 : Nat)

/-- The equation of `quad7` about `2 x + 3` and `(y0 + y1, y1 + 1)`. -/
example : (QuadEqu.along A7 B7 ![3] ![0, 1] ![1, 2] ![5] !![1, 2] 1 : QuadEqu K).Holds [3] [0, 3] :=
  (C113_quad_holds A7 B7 ![3] ![0, 1] ![1, 2] ![5] !![1, 2] 1 ![3] ![0, 3]).mpr (by rw [d7x, d7y]; exact quad7_holds)

example (sch : Nat → Scheduler) (sch' : Scheduler) :=
  C113_quad (e := e7) (crs := crs7) A7 B7 ![3] ![0, 1] ![1, 2] ![5] !![1, 2] 1 (fun _ => rfl) (fun _ => rfl) (by decide) (by decide) (by decide) ![3] ![0, 3] rfl rfl
    (by rw [d7x, d7y]; exact quad7_holds) sch sch' (0 : Nat) [] []

example (c : Fin 1 → Com K) (d : Fin 2 → Com K) (pfs : List (EquProof K K K)) (sch : Scheduler) :=
  C113_quad_verify (e := e7) (crs := crs7) (sch := sch) (sch' := sch) A7 B7 ![3] ![0, 1] ![1, 2] ![5] !![1, 2] 1 (fun _ => rfl) (fun _ => rfl) (by decide) c d [] [] [] [] pfs

example (R : _root_.Matrix (Fin 1) (Fin 1) K) (S : _root_.Matrix (Fin 2) (Fin 1) K) (sch : Nat → Scheduler) :=
  C113_quad_prove (GT := K) (G1 := K) (G2 := K) (crs := crs7) A7 B7 ![3] ![0, 1] ![1, 2] ![5] !![1, 2] 1 (by decide) ![3] ![0, 3] R S [] [] [] [] sch sch (0 : Nat)

end Ex
end GS
