import Verif.Props.Linear
import Verif.Lemmas.Closed
import Mathlib.LinearAlgebra.Matrix.Defs

/-!
# C73 - C75: the variables of an equation

The order of the variables does not matter (C73), variables that do not occur in the equation can be added or dropped
(C74), and a variable whose commitment is the bare image of a public value can be replaced by that value (C75).
-/

set_option linter.unusedSectionVars false

namespace GS
variable {F G1 G2 GT : Type} [Field F] [AddCommGroup G1] [Module F G1] [AddCommGroup G2] [Module F G2]
  [AddCommGroup GT] [Module F GT] {e : G1 →ₗ[F] G2 →ₗ[F] GT} {crs : CRS G1 G2 GT}

theorem gammaDom_of_dims {gamma : Matrix F} {m n : Nat} (h1 : gamma.length = m) (h2 : ∀ r ∈ gamma, r.length = n) :
    GammaDom m n gamma ↔ m = 0 ∨ 0 < n := by
  constructor
  · rintro (h | h)
    · exact .inl h.1
    · exact .inr h.2.1
  · rintro h
    rcases Nat.eq_zero_or_pos m with rfl | hm
    · exact .inl ⟨rfl, .inr (.inl (List.length_eq_zero_iff.mp h1))⟩
    · refine .inr ⟨hm, by omega, h1, fun r hr => h2 r (List.mem_of_mem_head? hr), fun r hr => (h2 r hr).ge⟩

theorem sameOutcome_of_bool {x y : Res Bool} (h1 : x.Ok ↔ y.Ok) (h2 : x = .ok true ↔ y = .ok true) :
    SameOutcome x y := by
  refine sameOutcome_of fun r => ?_
  rcases r with _ | _
  · constructor
    · intro h
      obtain ⟨b, hb⟩ := h1.mp ⟨_, h⟩
      rcases b with _ | _
      · exact hb
      · rw [h2.mpr hb] at h; simp at h
    · intro h
      obtain ⟨b, hb⟩ := h1.mpr ⟨_, h⟩
      rcases b with _ | _
      · exact hb
      · rw [h2.mp hb] at h; simp at h
  · exact h2

/-! ### Left-hand sides -/

section lhs
variable {m n : Nat}

theorem equLhs_perm' {A B C : Type} [AddCommGroup C] [Module F C] (f : A → B → C) (a : Fin n → A) (c : Fin m → A)
    (b : Fin m → B) (d : Fin n → B) (γ : Fin m → Fin n → F) (σ : Equiv.Perm (Fin m)) (τ : Equiv.Perm (Fin n)) :
    equLhs f (List.ofFn (a ∘ τ)) (List.ofFn (c ∘ σ)) (List.ofFn (b ∘ σ)) (List.ofFn (d ∘ τ))
      (matOf fun i j => γ (σ i) (τ j)) =
    equLhs f (List.ofFn a) (List.ofFn c) (List.ofFn b) (List.ofFn d) (matOf γ) := by
  rw [equLhs_ofFn, equLhs_ofFn]
  simp only [Function.comp_apply]
  rw [Equiv.sum_comp τ fun j => f (a j) (d j), Equiv.sum_comp σ fun i => f (c i) (b i),
    Equiv.sum_comp σ fun i => ∑ j, γ i (τ j) • f (c i) (d (τ j))]
  congr 1
  refine Finset.sum_congr rfl fun i _ => ?_
  rw [Equiv.sum_comp τ fun j => γ i j • f (c i) (d j)]

theorem equLhs_perm {A B C : Type} [AddCommGroup C] [Module F C] (f : A → B → C) (a : Fin n → A) (c : Fin m → A)
    (b : Fin m → B) (d : Fin n → B) (γ : _root_.Matrix (Fin m) (Fin n) F) (σ : Equiv.Perm (Fin m))
    (τ : Equiv.Perm (Fin n)) :
    equLhs f (List.ofFn (a ∘ τ)) (List.ofFn (c ∘ σ)) (List.ofFn (b ∘ σ)) (List.ofFn (d ∘ τ))
      (rows (γ.submatrix σ τ)) = equLhs f (List.ofFn a) (List.ofFn c) (List.ofFn b) (List.ofFn d) (rows γ) :=
  equLhs_perm' f a c b d γ σ τ

theorem sum_tensor_add (row : List F) (c0 : Com G1) : ∀ (a : List (Com G1)) (d : List (Com G2)),
    a.length = d.length → row.length = d.length →
    (List.zipWith (fun a y => tensor e a y) (List.zipWith (fun a g => a + g • c0) a row) d).sum =
      (List.zipWith (fun a y => tensor e a y) a d).sum + (List.zipWith (fun g y => g • tensor e c0 y) row d).sum := by
  induction row with
  | nil => intro a d h1 h2; cases d <;> simp_all
  | cons g row ih =>
    intro a d h1 h2
    rcases d with _ | ⟨d0, d⟩
    · simp at h2
    rcases a with _ | ⟨a0, a⟩
    · simp at h1
    simp only [List.zipWith_cons_cons, List.sum_cons]
    rw [ih a d (by simpa using h1) (by simpa using h2)]
    simp only [tensor_eq, map_add, map_smul, LinearMap.add_apply, LinearMap.smul_apply]
    abel

/-- The first `x` variable set apart. -/
theorem equLhs_split_x (a c : List (Com G1)) (b d : List (Com G2)) (gamma : Matrix F) (row : List F) (c0 : Com G1)
    (b0 : Com G2) (h1 : a.length = d.length) (h2 : row.length = d.length) :
    equLhs (tensor e) a (c0 :: c) (b0 :: b) d (row :: gamma) =
      equLhs (tensor e) (List.zipWith (fun a g => a + g • c0) a row) c b d gamma + tensor e c0 b0 := by
  simp only [equLhs, List.zipWith_cons_cons, List.sum_cons]
  rw [sum_tensor_add row c0 a d h1 h2]
  abel

theorem sum_tensor_add' (col : List F) (d0 : Com G2) : ∀ (b : List (Com G2)) (c : List (Com G1)),
    b.length = c.length → col.length = c.length →
    (List.zipWith (fun x b => tensor e x b) c (List.zipWith (fun b g => b + g • d0) b col)).sum =
      (List.zipWith (fun x b => tensor e x b) c b).sum + (List.zipWith (fun x g => g • tensor e x d0) c col).sum := by
  induction col with
  | nil => intro b c h1 h2; cases c <;> simp_all
  | cons g col ih =>
    intro b c h1 h2
    rcases c with _ | ⟨c0, c⟩
    · simp at h2
    rcases b with _ | ⟨b0, b⟩
    · simp at h1
    simp only [List.zipWith_cons_cons, List.sum_cons]
    rw [ih b c (by simpa using h1) (by simpa using h2)]
    simp only [tensor_eq, map_add, map_smul]
    abel

theorem sum_gamma_cons (d0 : Com G2) (d : List (Com G2)) (c : List (Com G1)) : ∀ (col : List F) (gamma : Matrix F),
    col.length = gamma.length → 
    (List.zipWith (fun x row => (List.zipWith (fun g y => g • tensor e x y) row (d0 :: d)).sum) c
      (List.zipWith List.cons col gamma)).sum =
    (List.zipWith (fun x g => g • tensor e x d0) c col).sum +
    (List.zipWith (fun x row => (List.zipWith (fun g y => g • tensor e x y) row d).sum) c gamma).sum := by
  induction c with
  | nil => intro col gamma h; simp
  | cons c0 c ih =>
    intro col gamma h
    rcases col with _ | ⟨g, col⟩
    · rcases gamma with _ | ⟨row, gamma⟩
      · simp
      · simp at h
    rcases gamma with _ | ⟨row, gamma⟩
    · simp at h
    simp only [List.zipWith_cons_cons, List.sum_cons]
    rw [ih col gamma (by simpa using h)]
    abel

/-- The first `y` variable set apart. -/
theorem equLhs_split_y (a c : List (Com G1)) (b d : List (Com G2)) (gamma : Matrix F) (col : List F) (a0 : Com G1)
    (d0 : Com G2) (h1 : b.length = c.length) (h2 : col.length = c.length) (h3 : gamma.length = c.length) :
    equLhs (tensor e) (a0 :: a) c b (d0 :: d) (List.zipWith List.cons col gamma) =
      equLhs (tensor e) a c (List.zipWith (fun b g => b + g • d0) b col) d gamma + tensor e a0 d0 := by
  simp only [equLhs]
  rw [sum_gamma_cons d0 d c col gamma (h2.trans h3.symm), sum_tensor_add' col d0 b c h1 h2]
  simp only [List.zipWith_cons_cons, List.sum_cons]
  abel

end lhs

theorem emb_zero {A : Type} [AddCommGroup A] : emb (0 : A) = 0 := rfl

theorem zipWith_replicate_zero {A : Type} [AddCommGroup A] [Module F A] (v : A) (a : List A) {n : Nat}
    (h : a.length = n) : List.zipWith (fun a g => a + g • v) a (List.replicate n (0 : F)) = a := by
  subst h
  induction a with
  | nil => rfl
  | cons a0 a ih => simp [List.replicate_succ, ih]

theorem map_emb_subst {A : Type} [AddCommGroup A] [Module F A] (v : A) (a : List A) (row : List F) :
    List.zipWith (fun a g => a + g • emb v) (a.map emb) row =
      (List.zipWith (fun a g => a + g • v) a row).map (emb : A → Com A) := by
  rw [List.zipWith_map_left, List.map_zipWith]
  congr 1
  funext a g
  simp [emb, Com.ext_iff]

theorem map_scalar_subst {A : Type} [AddCommGroup A] [Module F A] (w : Com A) (v : F) (a : List F) (row : List F) :
    List.zipWith (fun a g => a + g • v • w) (a.map fun a => a • w) row =
      (List.zipWith (fun a g => a + g * v) a row).map fun a => a • w := by
  rw [List.zipWith_map_left, List.map_zipWith]
  congr 1
  funext a g
  rw [add_smul, mul_smul]

theorem cons_cols {gamma : Matrix F} {col : List F} {m n : Nat} (h1 : gamma.length = m) (h2 : ∀ r ∈ gamma, r.length = n)
    (h3 : col.length = m) : (List.zipWith List.cons col gamma).length = m ∧
      ∀ r ∈ List.zipWith List.cons col gamma, r.length = n + 1 := by
  refine ⟨by simp [h1, h3], ?_⟩
  intro r hr
  rw [← List.map_uncurry_zip_eq_zipWith] at hr
  obtain ⟨⟨g, r'⟩, hp, rfl⟩ := List.mem_map.mp hr
  simp [h2 r' (List.of_mem_zip hp).2]

theorem scalarMap1_eq {w : F} {c0 u0 u1 : Com G1} {u' : List (Com G1)} (hu : crs.u = u0 :: u1 :: u')
    (h : Com1.scalarLinearMap w crs = .ok c0) : c0 = w • (u1 + emb crs.g1_gen) := by
  simp only [Com1.scalarLinearMap, hu] at h
  cases h; rfl

theorem scalarMap2_eq {w : F} {d0 v0 v1 : Com G2} {v' : List (Com G2)} (hv : crs.v = v0 :: v1 :: v')
    (h : Com2.scalarLinearMap w crs = .ok d0) : d0 = w • (v1 + emb crs.g2_gen) := by
  simp only [Com2.scalarLinearMap, hv] at h
  cases h; rfl

theorem target_ppex (t : GT) (w : G1) (b0 : G2) :
    (⟨0, 0, 0, t - e w b0⟩ : ComT GT) = ⟨0, 0, 0, t⟩ - tensor e (emb w) (emb b0) := by
  simp [tensor, emb, ComT.ext_iff]
theorem target_ppey (t : GT) (w : G2) (a0 : G1) :
    (⟨0, 0, 0, t - e a0 w⟩ : ComT GT) = ⟨0, 0, 0, t⟩ - tensor e (emb a0) (emb w) := target_ppex t a0 w
theorem target_m1x (t : G1) (w : G1) (b0 : F) (v : Com G2) :
    tensor e (emb (t - b0 • w)) v = tensor e (emb t) v - tensor e (emb w) (b0 • v) := by
  simp [tensor, emb, ComT.ext_iff]
theorem target_m1y (t : G1) (w : F) (a0 : G1) (v : Com G2) :
    tensor e (emb (t - w • a0)) v = tensor e (emb t) v - tensor e (emb a0) (w • v) := target_m1x t a0 w v
theorem target_m2y (t : G2) (w : G2) (a0 : F) (u : Com G1) :
    tensor e u (emb (t - a0 • w)) = tensor e u (emb t) - tensor e (a0 • u) (emb w) := by
  simp [tensor, emb, ComT.ext_iff]
theorem target_m2x (t : G2) (w : F) (b0 : G2) (u : Com G1) :
    tensor e u (emb (t - w • b0)) = tensor e u (emb t) - tensor e (w • u) (emb b0) := target_m2y t b0 w u
theorem target_qx (t w b0 : F) (u : Com G1) (v : Com G2) :
    (t - w * b0) • tensor e u v = t • tensor e u v - tensor e (w • u) (b0 • v) := by
  simp only [tensor_eq, map_smul, LinearMap.smul_apply, smul_smul, sub_smul, mul_comm w b0]
theorem target_qy (t w a0 : F) (u : Com G1) (v : Com G2) :
    (t - a0 * w) • tensor e u v = t • tensor e u v - tensor e (a0 • u) (w • v) := target_qx t a0 w u v

section verify
variable [DecidableEq GT] {sch sch' : Scheduler}

/-- Two calls of `verify` have the same outcome if the sizes fit and the verification equations are equivalent. -/
theorem PPE.verify_same {equ equ' : PPE F G1 G2 GT} {cp cp' : CProof F G1 G2} {m n m' n' : Nat} (hd : equ.Dims m n)
    (hd' : equ'.Dims m' n') (hx : cp.xcoms.coms.length = m) (hy : cp.ycoms.coms.length = n)
    (hx' : cp'.xcoms.coms.length = m') (hy' : cp'.ycoms.coms.length = n')
    (hmn : (m = 0 ∨ 0 < n) ↔ (m' = 0 ∨ 0 < n')) (hp : cp.equ_proofs = cp'.equ_proofs)
    (h : ∀ pf, equ.Equation e crs cp.xcoms.coms cp.ycoms.coms pf ↔
      equ'.Equation e crs cp'.xcoms.coms cp'.ycoms.coms pf) :
    SameOutcome (equ.verify e sch cp crs) (equ'.verify e sch' cp' crs) := by
  refine sameOutcome_of_bool ?_ ?_
  · rw [C37_ppe, C37_ppe, hx, hy, hx', hy', gammaDom_of_dims hd.rows hd.cols, gammaDom_of_dims hd'.rows hd'.cols, hd.a,
      hd.b, hd'.a, hd'.b, hmn, hp]
    simp only [true_and]
  · rw [PPE.accept_iff, PPE.accept_iff]
    simp only [h]
    rw [hx, hy, hx', hy', gammaDom_of_dims hd.rows hd.cols, gammaDom_of_dims hd'.rows hd'.cols, hd.a,
      hd.b, hd'.a, hd'.b, hmn, hp]
    simp only [true_and]

/-- C73, PPE: reordering the variables on either side, together with their commitments, constants and the rows and
columns of `gamma`, does not change the outcome of `verify`. -/
theorem C73_ppe_verify {m n : Nat} (σ : Equiv.Perm (Fin m)) (τ : Equiv.Perm (Fin n)) (a : Fin n → G1) (b : Fin m → G2)
    (γ : _root_.Matrix (Fin m) (Fin n) F) (t : GT) (c : Fin m → Com G1) (d : Fin n → Com G2)
    (r r' s s' : Matrix F) (pfs : List (EquProof F G1 G2)) :
    SameOutcome
      (PPE.verify e sch ⟨List.ofFn a, List.ofFn b, rows γ, t⟩ ⟨⟨List.ofFn c, r⟩, ⟨List.ofFn d, s⟩, pfs⟩ crs)
      (PPE.verify e sch' ⟨List.ofFn (a ∘ τ), List.ofFn (b ∘ σ), rows (γ.submatrix σ τ), t⟩
        ⟨⟨List.ofFn (c ∘ σ), r'⟩, ⟨List.ofFn (d ∘ τ), s'⟩, pfs⟩ crs) := by
  refine PPE.verify_same (m := m) (n := n) (m' := m) (n' := n)
    ⟨by simp, by simp, by simp [rows], by simp [rows, List.mem_ofFn]⟩
    ⟨by simp, by simp, by simp [rows], by simp [rows, List.mem_ofFn]⟩ (by simp) (by simp) (by simp) (by simp) Iff.rfl rfl fun pf => ?_
  simp only [PPE.Equation, gsEquation, List.map_ofFn, ← Function.comp_assoc, equLhs_perm]

/-- C74, PPE: a variable on the left that does not occur in the equation can be added with any commitment. -/
theorem C74_ppe_x (equ : PPE F G1 G2 GT) (c0 : Com G1) (c : List (Com G1)) (d : List (Com G2))
    (hd : equ.Dims c.length d.length) (hn : d ≠ []) (r r' s s' : Matrix F) (pfs : List (EquProof F G1 G2)) :
    SameOutcome
      (PPE.verify e sch { equ with b_consts := 0 :: equ.b_consts, gamma := List.replicate d.length 0 :: equ.gamma }
        ⟨⟨c0 :: c, r⟩, ⟨d, s⟩, pfs⟩ crs)
      (equ.verify e sch' ⟨⟨c, r'⟩, ⟨d, s'⟩, pfs⟩ crs) := by
  refine PPE.verify_same (m := c.length + 1) (n := d.length) (m' := c.length) (n' := d.length)
    ⟨hd.a, by simp [hd.b], by simp [hd.rows], by simpa using hd.cols⟩ hd (by simp) rfl rfl rfl ?_ rfl fun pf => ?_
  · have := List.length_pos_iff.mpr hn
    omega
  · simp only [PPE.Equation, gsEquation, List.map_cons]
    rw [equLhs_split_x _ _ _ _ _ _ _ _ (by simp [hd.a]) (by simp), zipWith_replicate_zero _ _ (by simp [hd.a])]
    simp only [emb_zero, tensor_eq, map_zero, add_zero]

/-- C74, PPE: a variable on the right that does not occur in the equation can be added with any commitment. -/
theorem C74_ppe_y (equ : PPE F G1 G2 GT) (d0 : Com G2) (c : List (Com G1)) (d : List (Com G2))
    (hd : equ.Dims c.length d.length) (hn : d ≠ []) (r r' s s' : Matrix F) (pfs : List (EquProof F G1 G2)) :
    SameOutcome
      (PPE.verify e sch { equ with a_consts := 0 :: equ.a_consts, gamma := equ.gamma.map (0 :: ·) }
        ⟨⟨c, r⟩, ⟨d0 :: d, s⟩, pfs⟩ crs)
      (equ.verify e sch' ⟨⟨c, r'⟩, ⟨d, s'⟩, pfs⟩ crs) := by
  refine PPE.verify_same (m := c.length) (n := d.length + 1) (m' := c.length) (n' := d.length)
    ⟨by simp [hd.a], hd.b, by simp [hd.rows], by simpa using hd.cols⟩ hd rfl (by simp) rfl rfl ?_ rfl fun pf => ?_
  · have := List.length_pos_iff.mpr hn
    omega
  · have hg : equ.gamma.map ((0 : F) :: ·) = List.zipWith List.cons (List.replicate c.length 0) equ.gamma := by
      rw [← hd.rows, ← List.map_const', List.zipWith_map_left, List.zipWith_self]
    simp only [PPE.Equation, gsEquation, List.map_cons, hg]
    rw [equLhs_split_y _ _ _ _ _ _ _ _ (by simp [hd.b]) (by simp) (by simp [hd.rows]), zipWith_replicate_zero _ _ (by simp [hd.b])]
    simp only [emb_zero, tensor_eq, map_zero, LinearMap.zero_apply, add_zero]

/-- C75, PPE: a variable on the left whose commitment is the bare image of `w` (no randomness) can be replaced by `w`: its
coefficients join the constants and its constant moves to the target. -/
theorem C75_ppe_x (equ : PPE F G1 G2 GT) (b0 : G2) (row : List F) (w : G1) (c : List (Com G1)) (d : List (Com G2))
    (hd : equ.Dims c.length d.length) (hrow : row.length = d.length) (hn : d ≠ [])
    (r r' s s' : Matrix F) (pfs : List (EquProof F G1 G2)) :
    SameOutcome
      (PPE.verify e sch { equ with b_consts := b0 :: equ.b_consts, gamma := row :: equ.gamma }
        ⟨⟨Com1.linearMap w :: c, r⟩, ⟨d, s⟩, pfs⟩ crs)
      (PPE.verify e sch' { equ with a_consts := List.zipWith (fun a g => a + g • w) equ.a_consts row, target := equ.target - e w b0 }
        ⟨⟨c, r'⟩, ⟨d, s'⟩, pfs⟩ crs) := by
  refine PPE.verify_same (m := c.length + 1) (n := d.length) (m' := c.length) (n' := d.length)
    ⟨hd.a, by simp [hd.b], by simp [hd.rows], by simpa [hrow] using hd.cols⟩
    ⟨by simp [hd.a, hrow], hd.b, hd.rows, hd.cols⟩ (by simp) rfl rfl rfl ?_ rfl fun pf => ?_
  · have := List.length_pos_iff.mpr hn
    omega
  · simp only [PPE.Equation, gsEquation, List.map_cons]
    change equLhs (tensor e) _ (emb w :: c) _ _ _ = _ ↔ _
    rw [equLhs_split_x _ _ _ _ _ _ _ _ (by simp [hd.a]) (by simp [hrow]), map_emb_subst]
    rw [target_ppex, sub_add_eq_add_sub, sub_add_eq_add_sub, eq_sub_iff_add_eq]

/-- C75, PPE: the same on the right. -/
theorem C75_ppe_y (equ : PPE F G1 G2 GT) (a0 : G1) (col : List F) (w : G2) (c : List (Com G1)) (d : List (Com G2))
    (hd : equ.Dims c.length d.length) (hcol : col.length = c.length) (hn : d ≠ [])
    (r r' s s' : Matrix F) (pfs : List (EquProof F G1 G2)) :
    SameOutcome
      (PPE.verify e sch { equ with a_consts := a0 :: equ.a_consts, gamma := List.zipWith List.cons col equ.gamma }
        ⟨⟨c, r⟩, ⟨Com2.linearMap w :: d, s⟩, pfs⟩ crs)
      (PPE.verify e sch' { equ with b_consts := List.zipWith (fun b g => b + g • w) equ.b_consts col, target := equ.target - e a0 w }
        ⟨⟨c, r'⟩, ⟨d, s'⟩, pfs⟩ crs) := by
  refine PPE.verify_same (m := c.length) (n := d.length + 1) (m' := c.length) (n' := d.length)
    ⟨by simp [hd.a], hd.b, (cons_cols hd.rows hd.cols hcol).1, (cons_cols hd.rows hd.cols hcol).2⟩
    ⟨hd.a, by simp [hd.b, hcol], hd.rows, hd.cols⟩ rfl (by simp) rfl rfl ?_ rfl fun pf => ?_
  · have := List.length_pos_iff.mpr hn
    omega
  · simp only [PPE.Equation, gsEquation, List.map_cons]
    change equLhs (tensor e) _ _ _ (emb w :: d) _ = _ ↔ _
    rw [equLhs_split_y _ _ _ _ _ _ _ _ (by simp [hd.b]) (by simp [hcol]) (by simp [hd.rows]), map_emb_subst]
    rw [target_ppey, sub_add_eq_add_sub, sub_add_eq_add_sub, eq_sub_iff_add_eq]

/-- Two calls of `verify` have the same outcome if the sizes fit and the verification equations are equivalent. -/
theorem MSMEG1.verify_same {equ equ' : MSMEG1 F G1} {cp cp' : CProof F G1 G2} {m n m' n' : Nat} (hd : equ.Dims m n)
    (hd' : equ'.Dims m' n') (hx : cp.xcoms.coms.length = m) (hy : cp.ycoms.coms.length = n)
    (hx' : cp'.xcoms.coms.length = m') (hy' : cp'.ycoms.coms.length = n')
    (hmn : (m = 0 ∨ 0 < n) ↔ (m' = 0 ∨ 0 < n')) (hp : cp.equ_proofs = cp'.equ_proofs)
    (h : ∀ pf, equ.Equation e crs cp.xcoms.coms cp.ycoms.coms pf ↔
      equ'.Equation e crs cp'.xcoms.coms cp'.ycoms.coms pf) :
    SameOutcome (equ.verify e sch cp crs) (equ'.verify e sch' cp' crs) := by
  refine sameOutcome_of_bool ?_ ?_
  · rw [C37_msmeg1, C37_msmeg1, hx, hy, hx', hy', gammaDom_of_dims hd.rows hd.cols, gammaDom_of_dims hd'.rows hd'.cols, hd.a,
      hd.b, hd'.a, hd'.b, hmn, hp]
    simp only [true_and]
  · rw [MSMEG1.accept_iff, MSMEG1.accept_iff]
    simp only [h]
    rw [hx, hy, hx', hy', gammaDom_of_dims hd.rows hd.cols, gammaDom_of_dims hd'.rows hd'.cols, hd.a,
      hd.b, hd'.a, hd'.b, hmn, hp]
    simp only [true_and]

/-- C73, MSMEG1: reordering the variables on either side, together with their commitments, constants and the rows and
columns of `gamma`, does not change the outcome of `verify`. -/
theorem C73_msmeg1_verify {m n : Nat} (σ : Equiv.Perm (Fin m)) (τ : Equiv.Perm (Fin n)) (a : Fin n → G1) (b : Fin m → F)
    (γ : _root_.Matrix (Fin m) (Fin n) F) (t : G1) (c : Fin m → Com G1) (d : Fin n → Com G2)
    (r r' s s' : Matrix F) (pfs : List (EquProof F G1 G2)) :
    SameOutcome
      (MSMEG1.verify e sch ⟨List.ofFn a, List.ofFn b, rows γ, t⟩ ⟨⟨List.ofFn c, r⟩, ⟨List.ofFn d, s⟩, pfs⟩ crs)
      (MSMEG1.verify e sch' ⟨List.ofFn (a ∘ τ), List.ofFn (b ∘ σ), rows (γ.submatrix σ τ), t⟩
        ⟨⟨List.ofFn (c ∘ σ), r'⟩, ⟨List.ofFn (d ∘ τ), s'⟩, pfs⟩ crs) := by
  refine MSMEG1.verify_same (m := m) (n := n) (m' := m) (n' := n)
    ⟨by simp, by simp, by simp [rows], by simp [rows, List.mem_ofFn]⟩
    ⟨by simp, by simp, by simp [rows], by simp [rows, List.mem_ofFn]⟩ (by simp) (by simp) (by simp) (by simp) Iff.rfl rfl fun pf => ?_
  simp only [MSMEG1.Equation, gsEquation, List.map_ofFn, ← Function.comp_assoc, equLhs_perm]

/-- C74, MSMEG1: a variable on the left that does not occur in the equation can be added with any commitment. -/
theorem C74_msmeg1_x (equ : MSMEG1 F G1) (c0 : Com G1) (c : List (Com G1)) (d : List (Com G2))
    (hd : equ.Dims c.length d.length) (hn : d ≠ []) (r r' s s' : Matrix F) (pfs : List (EquProof F G1 G2)) :
    SameOutcome
      (MSMEG1.verify e sch { equ with b_consts := 0 :: equ.b_consts, gamma := List.replicate d.length 0 :: equ.gamma }
        ⟨⟨c0 :: c, r⟩, ⟨d, s⟩, pfs⟩ crs)
      (equ.verify e sch' ⟨⟨c, r'⟩, ⟨d, s'⟩, pfs⟩ crs) := by
  refine MSMEG1.verify_same (m := c.length + 1) (n := d.length) (m' := c.length) (n' := d.length)
    ⟨hd.a, by simp [hd.b], by simp [hd.rows], by simpa using hd.cols⟩ hd (by simp) rfl rfl rfl ?_ rfl fun pf => ?_
  · have := List.length_pos_iff.mpr hn
    omega
  · simp only [MSMEG1.Equation, gsEquation, List.map_cons]
    refine exists_congr fun v0 => exists_congr fun v1 => exists_congr fun v' => exists_congr fun t0 => exists_congr fun t' => and_congr_right fun hv => and_congr_right fun hth => ?_
    rw [equLhs_split_x _ _ _ _ _ _ _ _ (by simp [hd.a]) (by simp), zipWith_replicate_zero _ _ (by simp [hd.a])]
    simp only [zero_smul, tensor_eq, map_zero, add_zero]

/-- C74, MSMEG1: a variable on the right that does not occur in the equation can be added with any commitment. -/
theorem C74_msmeg1_y (equ : MSMEG1 F G1) (d0 : Com G2) (c : List (Com G1)) (d : List (Com G2))
    (hd : equ.Dims c.length d.length) (hn : d ≠ []) (r r' s s' : Matrix F) (pfs : List (EquProof F G1 G2)) :
    SameOutcome
      (MSMEG1.verify e sch { equ with a_consts := 0 :: equ.a_consts, gamma := equ.gamma.map (0 :: ·) }
        ⟨⟨c, r⟩, ⟨d0 :: d, s⟩, pfs⟩ crs)
      (equ.verify e sch' ⟨⟨c, r'⟩, ⟨d, s'⟩, pfs⟩ crs) := by
  refine MSMEG1.verify_same (m := c.length) (n := d.length + 1) (m' := c.length) (n' := d.length)
    ⟨by simp [hd.a], hd.b, by simp [hd.rows], by simpa using hd.cols⟩ hd rfl (by simp) rfl rfl ?_ rfl fun pf => ?_
  · have := List.length_pos_iff.mpr hn
    omega
  · have hg : equ.gamma.map ((0 : F) :: ·) = List.zipWith List.cons (List.replicate c.length 0) equ.gamma := by
      rw [← hd.rows, ← List.map_const', List.zipWith_map_left, List.zipWith_self]
    simp only [MSMEG1.Equation, gsEquation, List.map_cons, hg]
    refine exists_congr fun v0 => exists_congr fun v1 => exists_congr fun v' => exists_congr fun t0 => exists_congr fun t' => and_congr_right fun hv => and_congr_right fun hth => ?_
    rw [equLhs_split_y _ _ _ _ _ _ _ _ (by simp [hd.b]) (by simp) (by simp [hd.rows]), zipWith_replicate_zero _ _ (by simp [hd.b])]
    simp only [emb_zero, tensor_eq, map_zero, LinearMap.zero_apply, add_zero]

/-- C75, MSMEG1: a variable on the left whose commitment is the bare image of `w` (no randomness) can be replaced by `w`: its
coefficients join the constants and its constant moves to the target. -/
theorem C75_msmeg1_x (equ : MSMEG1 F G1) (b0 : F) (row : List F) (w : G1) (c : List (Com G1)) (d : List (Com G2))
    (hd : equ.Dims c.length d.length) (hrow : row.length = d.length) (hn : d ≠ [])
    (r r' s s' : Matrix F) (pfs : List (EquProof F G1 G2)) :
    SameOutcome
      (MSMEG1.verify e sch { equ with b_consts := b0 :: equ.b_consts, gamma := row :: equ.gamma }
        ⟨⟨Com1.linearMap w :: c, r⟩, ⟨d, s⟩, pfs⟩ crs)
      (MSMEG1.verify e sch' { equ with a_consts := List.zipWith (fun a g => a + g • w) equ.a_consts row, target := equ.target - b0 • w }
        ⟨⟨c, r'⟩, ⟨d, s'⟩, pfs⟩ crs) := by
  refine MSMEG1.verify_same (m := c.length + 1) (n := d.length) (m' := c.length) (n' := d.length)
    ⟨hd.a, by simp [hd.b], by simp [hd.rows], by simpa [hrow] using hd.cols⟩
    ⟨by simp [hd.a, hrow], hd.b, hd.rows, hd.cols⟩ (by simp) rfl rfl rfl ?_ rfl fun pf => ?_
  · have := List.length_pos_iff.mpr hn
    omega
  · simp only [MSMEG1.Equation, gsEquation, List.map_cons]
    refine exists_congr fun v0 => exists_congr fun v1 => exists_congr fun v' => exists_congr fun t0 => exists_congr fun t' => and_congr_right fun hv => and_congr_right fun hth => ?_
    change equLhs (tensor e) _ (emb w :: c) _ _ _ = _ ↔ _
    rw [equLhs_split_x _ _ _ _ _ _ _ _ (by simp [hd.a]) (by simp [hrow]), map_emb_subst]
    rw [target_m1x, sub_add_eq_add_sub, sub_add_eq_add_sub, eq_sub_iff_add_eq]

/-- C75, MSMEG1: the same on the right. -/
theorem C75_msmeg1_y (equ : MSMEG1 F G1) (a0 : G1) (col : List F) (w : F) {d0 : Com G2} (hd0 : Com2.scalarLinearMap w crs = .ok d0) (c : List (Com G1)) (d : List (Com G2))
    (hd : equ.Dims c.length d.length) (hcol : col.length = c.length) (hn : d ≠ [])
    (r r' s s' : Matrix F) (pfs : List (EquProof F G1 G2)) :
    SameOutcome
      (MSMEG1.verify e sch { equ with a_consts := a0 :: equ.a_consts, gamma := List.zipWith List.cons col equ.gamma }
        ⟨⟨c, r⟩, ⟨d0 :: d, s⟩, pfs⟩ crs)
      (MSMEG1.verify e sch' { equ with b_consts := List.zipWith (fun b g => b + g * w) equ.b_consts col, target := equ.target - w • a0 }
        ⟨⟨c, r'⟩, ⟨d, s'⟩, pfs⟩ crs) := by
  refine MSMEG1.verify_same (m := c.length) (n := d.length + 1) (m' := c.length) (n' := d.length)
    ⟨by simp [hd.a], hd.b, (cons_cols hd.rows hd.cols hcol).1, (cons_cols hd.rows hd.cols hcol).2⟩
    ⟨hd.a, by simp [hd.b, hcol], hd.rows, hd.cols⟩ rfl (by simp) rfl rfl ?_ rfl fun pf => ?_
  · have := List.length_pos_iff.mpr hn
    omega
  · simp only [MSMEG1.Equation, gsEquation, List.map_cons]
    refine exists_congr fun v0 => exists_congr fun v1 => exists_congr fun v' => exists_congr fun t0 => exists_congr fun t' => and_congr_right fun hv => and_congr_right fun hth => ?_
    obtain rfl := scalarMap2_eq hv hd0
    rw [equLhs_split_y _ _ _ _ _ _ _ _ (by simp [hd.b]) (by simp [hcol]) (by simp [hd.rows]), map_scalar_subst]
    rw [target_m1y, sub_add_eq_add_sub, sub_add_eq_add_sub, eq_sub_iff_add_eq]

/-- Two calls of `verify` have the same outcome if the sizes fit and the verification equations are equivalent. -/
theorem MSMEG2.verify_same {equ equ' : MSMEG2 F G2} {cp cp' : CProof F G1 G2} {m n m' n' : Nat} (hd : equ.Dims m n)
    (hd' : equ'.Dims m' n') (hx : cp.xcoms.coms.length = m) (hy : cp.ycoms.coms.length = n)
    (hx' : cp'.xcoms.coms.length = m') (hy' : cp'.ycoms.coms.length = n')
    (hmn : (m = 0 ∨ 0 < n) ↔ (m' = 0 ∨ 0 < n')) (hp : cp.equ_proofs = cp'.equ_proofs)
    (h : ∀ pf, equ.Equation e crs cp.xcoms.coms cp.ycoms.coms pf ↔
      equ'.Equation e crs cp'.xcoms.coms cp'.ycoms.coms pf) :
    SameOutcome (equ.verify e sch cp crs) (equ'.verify e sch' cp' crs) := by
  refine sameOutcome_of_bool ?_ ?_
  · rw [C37_msmeg2, C37_msmeg2, hx, hy, hx', hy', gammaDom_of_dims hd.rows hd.cols, gammaDom_of_dims hd'.rows hd'.cols, hd.a,
      hd.b, hd'.a, hd'.b, hmn, hp]
    simp only [true_and]
  · rw [MSMEG2.accept_iff, MSMEG2.accept_iff]
    simp only [h]
    rw [hx, hy, hx', hy', gammaDom_of_dims hd.rows hd.cols, gammaDom_of_dims hd'.rows hd'.cols, hd.a,
      hd.b, hd'.a, hd'.b, hmn, hp]
    simp only [true_and]

/-- C73, MSMEG2: reordering the variables on either side, together with their commitments, constants and the rows and
columns of `gamma`, does not change the outcome of `verify`. -/
theorem C73_msmeg2_verify {m n : Nat} (σ : Equiv.Perm (Fin m)) (τ : Equiv.Perm (Fin n)) (a : Fin n → F) (b : Fin m → G2)
    (γ : _root_.Matrix (Fin m) (Fin n) F) (t : G2) (c : Fin m → Com G1) (d : Fin n → Com G2)
    (r r' s s' : Matrix F) (pfs : List (EquProof F G1 G2)) :
    SameOutcome
      (MSMEG2.verify e sch ⟨List.ofFn a, List.ofFn b, rows γ, t⟩ ⟨⟨List.ofFn c, r⟩, ⟨List.ofFn d, s⟩, pfs⟩ crs)
      (MSMEG2.verify e sch' ⟨List.ofFn (a ∘ τ), List.ofFn (b ∘ σ), rows (γ.submatrix σ τ), t⟩
        ⟨⟨List.ofFn (c ∘ σ), r'⟩, ⟨List.ofFn (d ∘ τ), s'⟩, pfs⟩ crs) := by
  refine MSMEG2.verify_same (m := m) (n := n) (m' := m) (n' := n)
    ⟨by simp, by simp, by simp [rows], by simp [rows, List.mem_ofFn]⟩
    ⟨by simp, by simp, by simp [rows], by simp [rows, List.mem_ofFn]⟩ (by simp) (by simp) (by simp) (by simp) Iff.rfl rfl fun pf => ?_
  simp only [MSMEG2.Equation, gsEquation, List.map_ofFn, ← Function.comp_assoc, equLhs_perm]

/-- C74, MSMEG2: a variable on the left that does not occur in the equation can be added with any commitment. -/
theorem C74_msmeg2_x (equ : MSMEG2 F G2) (c0 : Com G1) (c : List (Com G1)) (d : List (Com G2))
    (hd : equ.Dims c.length d.length) (hn : d ≠ []) (r r' s s' : Matrix F) (pfs : List (EquProof F G1 G2)) :
    SameOutcome
      (MSMEG2.verify e sch { equ with b_consts := 0 :: equ.b_consts, gamma := List.replicate d.length 0 :: equ.gamma }
        ⟨⟨c0 :: c, r⟩, ⟨d, s⟩, pfs⟩ crs)
      (equ.verify e sch' ⟨⟨c, r'⟩, ⟨d, s'⟩, pfs⟩ crs) := by
  refine MSMEG2.verify_same (m := c.length + 1) (n := d.length) (m' := c.length) (n' := d.length)
    ⟨hd.a, by simp [hd.b], by simp [hd.rows], by simpa using hd.cols⟩ hd (by simp) rfl rfl rfl ?_ rfl fun pf => ?_
  · have := List.length_pos_iff.mpr hn
    omega
  · simp only [MSMEG2.Equation, gsEquation, List.map_cons]
    refine exists_congr fun u0 => exists_congr fun u1 => exists_congr fun u' => exists_congr fun p0 => exists_congr fun p' => and_congr_right fun hu => and_congr_right fun hp => ?_
    rw [equLhs_split_x _ _ _ _ _ _ _ _ (by simp [hd.a]) (by simp), zipWith_replicate_zero _ _ (by simp [hd.a])]
    simp only [emb_zero, tensor_eq, map_zero, add_zero]

/-- C74, MSMEG2: a variable on the right that does not occur in the equation can be added with any commitment. -/
theorem C74_msmeg2_y (equ : MSMEG2 F G2) (d0 : Com G2) (c : List (Com G1)) (d : List (Com G2))
    (hd : equ.Dims c.length d.length) (hn : d ≠ []) (r r' s s' : Matrix F) (pfs : List (EquProof F G1 G2)) :
    SameOutcome
      (MSMEG2.verify e sch { equ with a_consts := 0 :: equ.a_consts, gamma := equ.gamma.map (0 :: ·) }
        ⟨⟨c, r⟩, ⟨d0 :: d, s⟩, pfs⟩ crs)
      (equ.verify e sch' ⟨⟨c, r'⟩, ⟨d, s'⟩, pfs⟩ crs) := by
  refine MSMEG2.verify_same (m := c.length) (n := d.length + 1) (m' := c.length) (n' := d.length)
    ⟨by simp [hd.a], hd.b, by simp [hd.rows], by simpa using hd.cols⟩ hd rfl (by simp) rfl rfl ?_ rfl fun pf => ?_
  · have := List.length_pos_iff.mpr hn
    omega
  · have hg : equ.gamma.map ((0 : F) :: ·) = List.zipWith List.cons (List.replicate c.length 0) equ.gamma := by
      rw [← hd.rows, ← List.map_const', List.zipWith_map_left, List.zipWith_self]
    simp only [MSMEG2.Equation, gsEquation, List.map_cons, hg]
    refine exists_congr fun u0 => exists_congr fun u1 => exists_congr fun u' => exists_congr fun p0 => exists_congr fun p' => and_congr_right fun hu => and_congr_right fun hp => ?_
    rw [equLhs_split_y _ _ _ _ _ _ _ _ (by simp [hd.b]) (by simp) (by simp [hd.rows]), zipWith_replicate_zero _ _ (by simp [hd.b])]
    simp only [zero_smul, tensor_eq, map_zero, LinearMap.zero_apply, add_zero]

/-- C75, MSMEG2: a variable on the left whose commitment is the bare image of `w` (no randomness) can be replaced by `w`: its
coefficients join the constants and its constant moves to the target. -/
theorem C75_msmeg2_x (equ : MSMEG2 F G2) (b0 : G2) (row : List F) (w : F) {c0 : Com G1} (hc0 : Com1.scalarLinearMap w crs = .ok c0) (c : List (Com G1)) (d : List (Com G2))
    (hd : equ.Dims c.length d.length) (hrow : row.length = d.length) (hn : d ≠ [])
    (r r' s s' : Matrix F) (pfs : List (EquProof F G1 G2)) :
    SameOutcome
      (MSMEG2.verify e sch { equ with b_consts := b0 :: equ.b_consts, gamma := row :: equ.gamma }
        ⟨⟨c0 :: c, r⟩, ⟨d, s⟩, pfs⟩ crs)
      (MSMEG2.verify e sch' { equ with a_consts := List.zipWith (fun a g => a + g * w) equ.a_consts row, target := equ.target - w • b0 }
        ⟨⟨c, r'⟩, ⟨d, s'⟩, pfs⟩ crs) := by
  refine MSMEG2.verify_same (m := c.length + 1) (n := d.length) (m' := c.length) (n' := d.length)
    ⟨hd.a, by simp [hd.b], by simp [hd.rows], by simpa [hrow] using hd.cols⟩
    ⟨by simp [hd.a, hrow], hd.b, hd.rows, hd.cols⟩ (by simp) rfl rfl rfl ?_ rfl fun pf => ?_
  · have := List.length_pos_iff.mpr hn
    omega
  · simp only [MSMEG2.Equation, gsEquation, List.map_cons]
    refine exists_congr fun u0 => exists_congr fun u1 => exists_congr fun u' => exists_congr fun p0 => exists_congr fun p' => and_congr_right fun hu => and_congr_right fun hp => ?_
    obtain rfl := scalarMap1_eq hu hc0
    rw [equLhs_split_x _ _ _ _ _ _ _ _ (by simp [hd.a]) (by simp [hrow]), map_scalar_subst]
    rw [target_m2x, sub_add_eq_add_sub, sub_add_eq_add_sub, eq_sub_iff_add_eq]

/-- C75, MSMEG2: the same on the right. -/
theorem C75_msmeg2_y (equ : MSMEG2 F G2) (a0 : F) (col : List F) (w : G2) (c : List (Com G1)) (d : List (Com G2))
    (hd : equ.Dims c.length d.length) (hcol : col.length = c.length) (hn : d ≠ [])
    (r r' s s' : Matrix F) (pfs : List (EquProof F G1 G2)) :
    SameOutcome
      (MSMEG2.verify e sch { equ with a_consts := a0 :: equ.a_consts, gamma := List.zipWith List.cons col equ.gamma }
        ⟨⟨c, r⟩, ⟨Com2.linearMap w :: d, s⟩, pfs⟩ crs)
      (MSMEG2.verify e sch' { equ with b_consts := List.zipWith (fun b g => b + g • w) equ.b_consts col, target := equ.target - a0 • w }
        ⟨⟨c, r'⟩, ⟨d, s'⟩, pfs⟩ crs) := by
  refine MSMEG2.verify_same (m := c.length) (n := d.length + 1) (m' := c.length) (n' := d.length)
    ⟨by simp [hd.a], hd.b, (cons_cols hd.rows hd.cols hcol).1, (cons_cols hd.rows hd.cols hcol).2⟩
    ⟨hd.a, by simp [hd.b, hcol], hd.rows, hd.cols⟩ rfl (by simp) rfl rfl ?_ rfl fun pf => ?_
  · have := List.length_pos_iff.mpr hn
    omega
  · simp only [MSMEG2.Equation, gsEquation, List.map_cons]
    refine exists_congr fun u0 => exists_congr fun u1 => exists_congr fun u' => exists_congr fun p0 => exists_congr fun p' => and_congr_right fun hu => and_congr_right fun hp => ?_
    change equLhs (tensor e) _ _ _ (emb w :: d) _ = _ ↔ _
    rw [equLhs_split_y _ _ _ _ _ _ _ _ (by simp [hd.b]) (by simp [hcol]) (by simp [hd.rows]), map_emb_subst]
    rw [target_m2y, sub_add_eq_add_sub, sub_add_eq_add_sub, eq_sub_iff_add_eq]

/-- Two calls of `verify` have the same outcome if the sizes fit and the verification equations are equivalent. -/
theorem QuadEqu.verify_same {equ equ' : QuadEqu F} {cp cp' : CProof F G1 G2} {m n m' n' : Nat} (hd : equ.Dims m n)
    (hd' : equ'.Dims m' n') (hx : cp.xcoms.coms.length = m) (hy : cp.ycoms.coms.length = n)
    (hx' : cp'.xcoms.coms.length = m') (hy' : cp'.ycoms.coms.length = n')
    (hmn : (m = 0 ∨ 0 < n) ↔ (m' = 0 ∨ 0 < n')) (hp : cp.equ_proofs = cp'.equ_proofs)
    (h : ∀ pf, equ.Equation e crs cp.xcoms.coms cp.ycoms.coms pf ↔
      equ'.Equation e crs cp'.xcoms.coms cp'.ycoms.coms pf) :
    SameOutcome (equ.verify e sch cp crs) (equ'.verify e sch' cp' crs) := by
  refine sameOutcome_of_bool ?_ ?_
  · rw [C37_quad, C37_quad, hx, hy, hx', hy', gammaDom_of_dims hd.rows hd.cols, gammaDom_of_dims hd'.rows hd'.cols, hd.a,
      hd.b, hd'.a, hd'.b, hmn, hp]
    simp only [true_and]
  · rw [QuadEqu.accept_iff, QuadEqu.accept_iff]
    simp only [h]
    rw [hx, hy, hx', hy', gammaDom_of_dims hd.rows hd.cols, gammaDom_of_dims hd'.rows hd'.cols, hd.a,
      hd.b, hd'.a, hd'.b, hmn, hp]
    simp only [true_and]

/-- C73, QuadEqu: reordering the variables on either side, together with their commitments, constants and the rows and
columns of `gamma`, does not change the outcome of `verify`. -/
theorem C73_quad_verify {m n : Nat} (σ : Equiv.Perm (Fin m)) (τ : Equiv.Perm (Fin n)) (a : Fin n → F) (b : Fin m → F)
    (γ : _root_.Matrix (Fin m) (Fin n) F) (t : F) (c : Fin m → Com G1) (d : Fin n → Com G2)
    (r r' s s' : Matrix F) (pfs : List (EquProof F G1 G2)) :
    SameOutcome
      (QuadEqu.verify e sch ⟨List.ofFn a, List.ofFn b, rows γ, t⟩ ⟨⟨List.ofFn c, r⟩, ⟨List.ofFn d, s⟩, pfs⟩ crs)
      (QuadEqu.verify e sch' ⟨List.ofFn (a ∘ τ), List.ofFn (b ∘ σ), rows (γ.submatrix σ τ), t⟩
        ⟨⟨List.ofFn (c ∘ σ), r'⟩, ⟨List.ofFn (d ∘ τ), s'⟩, pfs⟩ crs) := by
  refine QuadEqu.verify_same (m := m) (n := n) (m' := m) (n' := n)
    ⟨by simp, by simp, by simp [rows], by simp [rows, List.mem_ofFn]⟩
    ⟨by simp, by simp, by simp [rows], by simp [rows, List.mem_ofFn]⟩ (by simp) (by simp) (by simp) (by simp) Iff.rfl rfl fun pf => ?_
  simp only [QuadEqu.Equation, gsEquation, List.map_ofFn, ← Function.comp_assoc, equLhs_perm]

/-- C74, QuadEqu: a variable on the left that does not occur in the equation can be added with any commitment. -/
theorem C74_quad_x (equ : QuadEqu F) (c0 : Com G1) (c : List (Com G1)) (d : List (Com G2))
    (hd : equ.Dims c.length d.length) (hn : d ≠ []) (r r' s s' : Matrix F) (pfs : List (EquProof F G1 G2)) :
    SameOutcome
      (QuadEqu.verify e sch { equ with b_consts := 0 :: equ.b_consts, gamma := List.replicate d.length 0 :: equ.gamma }
        ⟨⟨c0 :: c, r⟩, ⟨d, s⟩, pfs⟩ crs)
      (equ.verify e sch' ⟨⟨c, r'⟩, ⟨d, s'⟩, pfs⟩ crs) := by
  refine QuadEqu.verify_same (m := c.length + 1) (n := d.length) (m' := c.length) (n' := d.length)
    ⟨hd.a, by simp [hd.b], by simp [hd.rows], by simpa using hd.cols⟩ hd (by simp) rfl rfl rfl ?_ rfl fun pf => ?_
  · have := List.length_pos_iff.mpr hn
    omega
  · simp only [QuadEqu.Equation, gsEquation, List.map_cons]
    refine exists_congr fun u0 => exists_congr fun u1 => exists_congr fun u' => exists_congr fun v0 => exists_congr fun v1 => exists_congr fun v' => exists_congr fun p0 => exists_congr fun p' => exists_congr fun t0 => exists_congr fun t' => and_congr_right fun hu => and_congr_right fun hv => and_congr_right fun hp => and_congr_right fun hth => ?_
    rw [equLhs_split_x _ _ _ _ _ _ _ _ (by simp [hd.a]) (by simp), zipWith_replicate_zero _ _ (by simp [hd.a])]
    simp only [zero_smul, tensor_eq, map_zero, add_zero]

/-- C74, QuadEqu: a variable on the right that does not occur in the equation can be added with any commitment. -/
theorem C74_quad_y (equ : QuadEqu F) (d0 : Com G2) (c : List (Com G1)) (d : List (Com G2))
    (hd : equ.Dims c.length d.length) (hn : d ≠ []) (r r' s s' : Matrix F) (pfs : List (EquProof F G1 G2)) :
    SameOutcome
      (QuadEqu.verify e sch { equ with a_consts := 0 :: equ.a_consts, gamma := equ.gamma.map (0 :: ·) }
        ⟨⟨c, r⟩, ⟨d0 :: d, s⟩, pfs⟩ crs)
      (equ.verify e sch' ⟨⟨c, r'⟩, ⟨d, s'⟩, pfs⟩ crs) := by
  refine QuadEqu.verify_same (m := c.length) (n := d.length + 1) (m' := c.length) (n' := d.length)
    ⟨by simp [hd.a], hd.b, by simp [hd.rows], by simpa using hd.cols⟩ hd rfl (by simp) rfl rfl ?_ rfl fun pf => ?_
  · have := List.length_pos_iff.mpr hn
    omega
  · have hg : equ.gamma.map ((0 : F) :: ·) = List.zipWith List.cons (List.replicate c.length 0) equ.gamma := by
      rw [← hd.rows, ← List.map_const', List.zipWith_map_left, List.zipWith_self]
    simp only [QuadEqu.Equation, gsEquation, List.map_cons, hg]
    refine exists_congr fun u0 => exists_congr fun u1 => exists_congr fun u' => exists_congr fun v0 => exists_congr fun v1 => exists_congr fun v' => exists_congr fun p0 => exists_congr fun p' => exists_congr fun t0 => exists_congr fun t' => and_congr_right fun hu => and_congr_right fun hv => and_congr_right fun hp => and_congr_right fun hth => ?_
    rw [equLhs_split_y _ _ _ _ _ _ _ _ (by simp [hd.b]) (by simp) (by simp [hd.rows]), zipWith_replicate_zero _ _ (by simp [hd.b])]
    simp only [zero_smul, tensor_eq, map_zero, LinearMap.zero_apply, add_zero]

/-- C75, QuadEqu: a variable on the left whose commitment is the bare image of `w` (no randomness) can be replaced by `w`: its
coefficients join the constants and its constant moves to the target. -/
theorem C75_quad_x (equ : QuadEqu F) (b0 : F) (row : List F) (w : F) {c0 : Com G1} (hc0 : Com1.scalarLinearMap w crs = .ok c0) (c : List (Com G1)) (d : List (Com G2))
    (hd : equ.Dims c.length d.length) (hrow : row.length = d.length) (hn : d ≠ [])
    (r r' s s' : Matrix F) (pfs : List (EquProof F G1 G2)) :
    SameOutcome
      (QuadEqu.verify e sch { equ with b_consts := b0 :: equ.b_consts, gamma := row :: equ.gamma }
        ⟨⟨c0 :: c, r⟩, ⟨d, s⟩, pfs⟩ crs)
      (QuadEqu.verify e sch' { equ with a_consts := List.zipWith (fun a g => a + g * w) equ.a_consts row, target := equ.target - w * b0 }
        ⟨⟨c, r'⟩, ⟨d, s'⟩, pfs⟩ crs) := by
  refine QuadEqu.verify_same (m := c.length + 1) (n := d.length) (m' := c.length) (n' := d.length)
    ⟨hd.a, by simp [hd.b], by simp [hd.rows], by simpa [hrow] using hd.cols⟩
    ⟨by simp [hd.a, hrow], hd.b, hd.rows, hd.cols⟩ (by simp) rfl rfl rfl ?_ rfl fun pf => ?_
  · have := List.length_pos_iff.mpr hn
    omega
  · simp only [QuadEqu.Equation, gsEquation, List.map_cons]
    refine exists_congr fun u0 => exists_congr fun u1 => exists_congr fun u' => exists_congr fun v0 => exists_congr fun v1 => exists_congr fun v' => exists_congr fun p0 => exists_congr fun p' => exists_congr fun t0 => exists_congr fun t' => and_congr_right fun hu => and_congr_right fun hv => and_congr_right fun hp => and_congr_right fun hth => ?_
    obtain rfl := scalarMap1_eq hu hc0
    rw [equLhs_split_x _ _ _ _ _ _ _ _ (by simp [hd.a]) (by simp [hrow]), map_scalar_subst]
    rw [target_qx, sub_add_eq_add_sub, sub_add_eq_add_sub, eq_sub_iff_add_eq]

/-- C75, QuadEqu: the same on the right. -/
theorem C75_quad_y (equ : QuadEqu F) (a0 : F) (col : List F) (w : F) {d0 : Com G2} (hd0 : Com2.scalarLinearMap w crs = .ok d0) (c : List (Com G1)) (d : List (Com G2))
    (hd : equ.Dims c.length d.length) (hcol : col.length = c.length) (hn : d ≠ [])
    (r r' s s' : Matrix F) (pfs : List (EquProof F G1 G2)) :
    SameOutcome
      (QuadEqu.verify e sch { equ with a_consts := a0 :: equ.a_consts, gamma := List.zipWith List.cons col equ.gamma }
        ⟨⟨c, r⟩, ⟨d0 :: d, s⟩, pfs⟩ crs)
      (QuadEqu.verify e sch' { equ with b_consts := List.zipWith (fun b g => b + g * w) equ.b_consts col, target := equ.target - a0 * w }
        ⟨⟨c, r'⟩, ⟨d, s'⟩, pfs⟩ crs) := by
  refine QuadEqu.verify_same (m := c.length) (n := d.length + 1) (m' := c.length) (n' := d.length)
    ⟨by simp [hd.a], hd.b, (cons_cols hd.rows hd.cols hcol).1, (cons_cols hd.rows hd.cols hcol).2⟩
    ⟨hd.a, by simp [hd.b, hcol], hd.rows, hd.cols⟩ rfl (by simp) rfl rfl ?_ rfl fun pf => ?_
  · have := List.length_pos_iff.mpr hn
    omega
  · simp only [QuadEqu.Equation, gsEquation, List.map_cons]
    refine exists_congr fun u0 => exists_congr fun u1 => exists_congr fun u' => exists_congr fun v0 => exists_congr fun v1 => exists_congr fun v' => exists_congr fun p0 => exists_congr fun p' => exists_congr fun t0 => exists_congr fun t' => and_congr_right fun hu => and_congr_right fun hv => and_congr_right fun hp => and_congr_right fun hth => ?_
    obtain rfl := scalarMap2_eq hv hd0
    rw [equLhs_split_y _ _ _ _ _ _ _ _ (by simp [hd.b]) (by simp [hcol]) (by simp [hd.rows]), map_scalar_subst]
    rw [target_qy, sub_add_eq_add_sub, sub_add_eq_add_sub, eq_sub_iff_add_eq]

end verify

/-! ### Proving with reordered variables -/

section prove
variable {m n p q : Nat}

theorem piVal_perm {B : Type} [AddCommGroup B] [Module F B] (σ : Equiv.Perm (Fin m)) (τ : Equiv.Perm (Fin n)) (b : Fin m → B) (y : Fin n → B) (γ : Fin m → Fin n → F)
    (R : Fin m → Fin p → F) (S : Fin n → Fin q → F) (T : Fin q → Fin p → F) (v : Fin q → B) :
    piVal (fun i => b (σ i)) (fun j => y (τ j)) (fun i j => γ (σ i) (τ j)) (fun i => R (σ i)) (fun j => S (τ j)) T v =
      piVal b y γ R S T v := by
  funext k
  unfold piVal
  have h : ∀ j, ∑ i, R (σ i) k * γ (σ i) j = ∑ i, R i k * γ i j := fun j => Equiv.sum_comp σ fun i => R i k * γ i j
  have h1 : ∀ l, ∑ j, (∑ i, R i k * γ i (τ j)) * S (τ j) l = ∑ j, (∑ i, R i k * γ i j) * S j l :=
    fun l => Equiv.sum_comp τ fun j => (∑ i, R i k * γ i j) * S j l
  simp only [h, h1]
  rw [Equiv.sum_comp σ fun i => R i k • b i, Equiv.sum_comp τ fun j => (∑ i, R i k * γ i j) • y j]

theorem thetaVal_perm {A : Type} [AddCommGroup A] [Module F A] (σ : Equiv.Perm (Fin m)) (τ : Equiv.Perm (Fin n)) (a : Fin n → A) (x : Fin m → A) (γ : Fin m → Fin n → F)
    (S : Fin n → Fin q → F) (T : Fin q → Fin p → F) (u : Fin p → A) :
    thetaVal (fun j => a (τ j)) (fun i => x (σ i)) (fun i j => γ (σ i) (τ j)) (fun j => S (τ j)) T u =
      thetaVal a x γ S T u := by
  funext l
  unfold thetaVal
  have h : ∀ i, ∑ j, S (τ j) l * γ i (τ j) = ∑ j, S j l * γ i j := fun i => Equiv.sum_comp τ fun j => S j l * γ i j
  simp only [h]
  rw [Equiv.sum_comp τ fun j => S j l • a j, Equiv.sum_comp σ fun i => (∑ j, S j l * γ i j) • x i]

variable {ρ : Type} [Rng ρ F G1 G2]

theorem EquProof.ext' {p p' : EquProof F G1 G2} (h1 : p.pi = p'.pi) (h2 : p.theta = p'.theta)
    (h3 : p.equ_type = p'.equ_type) (h4 : p.rand = p'.rand) : p = p' := by
  cases p; cases p'; simp_all

/-- C73, PPE: `prove` gives the very same proof when the variables are reordered together with their randomness,
constants and the rows and columns of `gamma`. -/
theorem C73_ppe_prove {m n : Nat} (σ : Equiv.Perm (Fin m)) (τ : Equiv.Perm (Fin n)) (a : Fin n → G1) (b : Fin m → G2)
    (γ : _root_.Matrix (Fin m) (Fin n) F) (t : GT) (x : Fin m → G1) (y : Fin n → G2)
    (R : _root_.Matrix (Fin m) (Fin 2) F) (S : _root_.Matrix (Fin n) (Fin 2) F) (c c' : List (Com G1))
    (d d' : List (Com G2)) (sch sch' : Nat → Scheduler) (rng : ρ) :
    SameOutcome
      (PPE.prove sch ⟨List.ofFn a, List.ofFn b, rows γ, t⟩ (List.ofFn x) (List.ofFn y) ⟨c, rows R⟩ ⟨d, rows S⟩ crs rng)
      (PPE.prove sch' ⟨List.ofFn (a ∘ τ), List.ofFn (b ∘ σ), rows (γ.submatrix σ τ), t⟩ (List.ofFn (x ∘ σ))
        (List.ofFn (y ∘ τ)) ⟨c', rows (R.submatrix σ id)⟩ ⟨d', rows (S.submatrix τ id)⟩ crs rng) := by
  by_cases hdom : 0 < m ∧ 0 < n ∧ crs.u.length = 2 ∧ crs.v.length = 2
  · obtain ⟨hm, hn, hu, hv⟩ := hdom
    obtain ⟨u0, u1, hu⟩ := List.length_eq_two.mp hu
    obtain ⟨v0, v1, hv⟩ := List.length_eq_two.mp hv
    have h1 := PPE.prove_closed (self := ⟨List.ofFn a, List.ofFn b, rows γ, t⟩) (sch := sch) (xc := ⟨c, rows R⟩)
      (yc := ⟨d, rows S⟩) (crs := crs) (rng := rng) hm hn rfl rfl rfl x y rfl rfl hu hv (T := ![![_, _], ![_, _]]) rfl rfl
    have h2 := PPE.prove_closed (self := ⟨List.ofFn (a ∘ τ), List.ofFn (b ∘ σ), rows (γ.submatrix σ τ), t⟩) (sch := sch')
      (xc := ⟨c', rows (R.submatrix σ id)⟩) (yc := ⟨d', rows (S.submatrix τ id)⟩) (crs := crs) (rng := rng) hm hn
      rfl rfl rfl (x ∘ σ) (y ∘ τ) rfl rfl hu hv (T := ![![_, _], ![_, _]]) rfl rfl
    refine sameOutcome_of fun r => ?_
    rw [h1, h2]
    refine Eq.congr_left (congrArg Except.ok ?_)
    refine Prod.ext (EquProof.ext' ?_ ?_ rfl rfl) rfl
    · exact congrArg List.ofFn (piVal_perm σ τ (fun i => i2 (F := F) (b i)) (fun i => i2 (F := F) (y i)) γ R S _ _).symm
    · exact congrArg List.ofFn (thetaVal_perm σ τ (fun i => i1 (F := F) (a i)) (fun i => i1 (F := F) (x i)) γ S _ _).symm
  · refine sameOutcome_of fun r => ?_
    have hno : ∀ {r : Res (EquProof F G1 G2 × ρ)}, ¬ r.Ok → ∀ s, r ≠ .ok s := fun h s hs => h ⟨s, hs⟩
    refine iff_of_false (hno ?_ r) (hno ?_ r) <;> rw [PPE.prove_dom] <;> intro h <;> apply hdom
    · obtain ⟨hx, hy, -, -, -, hu, hv⟩ := h
      exact ⟨List.length_ofFn (f := x) ▸ List.length_pos_iff.mpr hx, List.length_ofFn (f := y) ▸ List.length_pos_iff.mpr hy, hu, hv⟩
    · obtain ⟨hx, hy, -, -, -, hu, hv⟩ := h
      exact ⟨List.length_ofFn (f := x ∘ σ) ▸ List.length_pos_iff.mpr hx, List.length_ofFn (f := y ∘ τ) ▸ List.length_pos_iff.mpr hy, hu, hv⟩

/-- C73, MSMEG1: `prove` gives the very same proof when the variables are reordered together with their randomness,
constants and the rows and columns of `gamma`. -/
theorem C73_msmeg1_prove {m n : Nat} (σ : Equiv.Perm (Fin m)) (τ : Equiv.Perm (Fin n)) (a : Fin n → G1) (b : Fin m → F)
    (γ : _root_.Matrix (Fin m) (Fin n) F) (t : G1) (x : Fin m → G1) (y : Fin n → F)
    (R : _root_.Matrix (Fin m) (Fin 2) F) (S : _root_.Matrix (Fin n) (Fin 1) F) (c c' : List (Com G1))
    (d d' : List (Com G2)) (sch sch' : Nat → Scheduler) (rng : ρ) :
    SameOutcome
      (MSMEG1.prove sch ⟨List.ofFn a, List.ofFn b, rows γ, t⟩ (List.ofFn x) (List.ofFn y) ⟨c, rows R⟩ ⟨d, rows S⟩ crs rng)
      (MSMEG1.prove sch' ⟨List.ofFn (a ∘ τ), List.ofFn (b ∘ σ), rows (γ.submatrix σ τ), t⟩ (List.ofFn (x ∘ σ))
        (List.ofFn (y ∘ τ)) ⟨c', rows (R.submatrix σ id)⟩ ⟨d', rows (S.submatrix τ id)⟩ crs rng) := by
  by_cases hdom : 0 < m ∧ 0 < n ∧ crs.u.length = 2 ∧ 2 ≤ crs.v.length
  · obtain ⟨hm, hn, hu, hv⟩ := hdom
    obtain ⟨u0, u1, hu⟩ := List.length_eq_two.mp hu
    obtain ⟨v0, v1, v', hv⟩ := cons2_of_length hv
    have h1 := MSMEG1.prove_closed (self := ⟨List.ofFn a, List.ofFn b, rows γ, t⟩) (sch := sch) (xc := ⟨c, rows R⟩)
      (yc := ⟨d, rows S⟩) (crs := crs) (rng := rng) hm hn rfl rfl rfl x y rfl rfl hu hv (T := ![![_, _]]) rfl rfl
    have h2 := MSMEG1.prove_closed (self := ⟨List.ofFn (a ∘ τ), List.ofFn (b ∘ σ), rows (γ.submatrix σ τ), t⟩) (sch := sch')
      (xc := ⟨c', rows (R.submatrix σ id)⟩) (yc := ⟨d', rows (S.submatrix τ id)⟩) (crs := crs) (rng := rng) hm hn
      rfl rfl rfl (x ∘ σ) (y ∘ τ) rfl rfl hu hv (T := ![![_, _]]) rfl rfl
    refine sameOutcome_of fun r => ?_
    rw [h1, h2]
    refine Eq.congr_left (congrArg Except.ok ?_)
    refine Prod.ext (EquProof.ext' ?_ ?_ rfl rfl) rfl
    · exact congrArg List.ofFn (piVal_perm σ τ (fun i => b i • (v1 + Com2.linearMap crs.g2_gen)) (fun i => y i • (v1 + Com2.linearMap crs.g2_gen)) γ R S _ _).symm
    · exact congrArg List.ofFn (thetaVal_perm σ τ (fun i => i1 (F := F) (a i)) (fun i => i1 (F := F) (x i)) γ S _ _).symm
  · refine sameOutcome_of fun r => ?_
    have hno : ∀ {r : Res (EquProof F G1 G2 × ρ)}, ¬ r.Ok → ∀ s, r ≠ .ok s := fun h s hs => h ⟨s, hs⟩
    refine iff_of_false (hno ?_ r) (hno ?_ r) <;> rw [MSMEG1.prove_dom] <;> intro h <;> apply hdom
    · obtain ⟨hx, hy, -, -, -, hu, hv⟩ := h
      exact ⟨List.length_ofFn (f := x) ▸ List.length_pos_iff.mpr hx, List.length_ofFn (f := y) ▸ List.length_pos_iff.mpr hy, hu, hv⟩
    · obtain ⟨hx, hy, -, -, -, hu, hv⟩ := h
      exact ⟨List.length_ofFn (f := x ∘ σ) ▸ List.length_pos_iff.mpr hx, List.length_ofFn (f := y ∘ τ) ▸ List.length_pos_iff.mpr hy, hu, hv⟩

/-- C73, MSMEG2: `prove` gives the very same proof when the variables are reordered together with their randomness,
constants and the rows and columns of `gamma`. -/
theorem C73_msmeg2_prove {m n : Nat} (σ : Equiv.Perm (Fin m)) (τ : Equiv.Perm (Fin n)) (a : Fin n → F) (b : Fin m → G2)
    (γ : _root_.Matrix (Fin m) (Fin n) F) (t : G2) (x : Fin m → F) (y : Fin n → G2)
    (R : _root_.Matrix (Fin m) (Fin 1) F) (S : _root_.Matrix (Fin n) (Fin 2) F) (c c' : List (Com G1))
    (d d' : List (Com G2)) (sch sch' : Nat → Scheduler) (rng : ρ) :
    SameOutcome
      (MSMEG2.prove sch ⟨List.ofFn a, List.ofFn b, rows γ, t⟩ (List.ofFn x) (List.ofFn y) ⟨c, rows R⟩ ⟨d, rows S⟩ crs rng)
      (MSMEG2.prove sch' ⟨List.ofFn (a ∘ τ), List.ofFn (b ∘ σ), rows (γ.submatrix σ τ), t⟩ (List.ofFn (x ∘ σ))
        (List.ofFn (y ∘ τ)) ⟨c', rows (R.submatrix σ id)⟩ ⟨d', rows (S.submatrix τ id)⟩ crs rng) := by
  by_cases hdom : 0 < m ∧ 0 < n ∧ 2 ≤ crs.u.length ∧ crs.v.length = 2
  · obtain ⟨hm, hn, hu, hv⟩ := hdom
    obtain ⟨u0, u1, u', hu⟩ := cons2_of_length hu
    obtain ⟨v0, v1, hv⟩ := List.length_eq_two.mp hv
    have h1 := MSMEG2.prove_closed (self := ⟨List.ofFn a, List.ofFn b, rows γ, t⟩) (sch := sch) (xc := ⟨c, rows R⟩)
      (yc := ⟨d, rows S⟩) (crs := crs) (rng := rng) hm hn rfl rfl rfl x y rfl rfl hu hv (T := ![![_], ![_]]) rfl rfl
    have h2 := MSMEG2.prove_closed (self := ⟨List.ofFn (a ∘ τ), List.ofFn (b ∘ σ), rows (γ.submatrix σ τ), t⟩) (sch := sch')
      (xc := ⟨c', rows (R.submatrix σ id)⟩) (yc := ⟨d', rows (S.submatrix τ id)⟩) (crs := crs) (rng := rng) hm hn
      rfl rfl rfl (x ∘ σ) (y ∘ τ) rfl rfl hu hv (T := ![![_], ![_]]) rfl rfl
    refine sameOutcome_of fun r => ?_
    rw [h1, h2]
    refine Eq.congr_left (congrArg Except.ok ?_)
    refine Prod.ext (EquProof.ext' ?_ ?_ rfl rfl) rfl
    · exact congrArg List.ofFn (piVal_perm σ τ (fun i => i2 (F := F) (b i)) (fun i => i2 (F := F) (y i)) γ R S _ _).symm
    · exact congrArg List.ofFn (thetaVal_perm σ τ (fun i => a i • (u1 + Com1.linearMap crs.g1_gen)) (fun i => x i • (u1 + Com1.linearMap crs.g1_gen)) γ S _ _).symm
  · refine sameOutcome_of fun r => ?_
    have hno : ∀ {r : Res (EquProof F G1 G2 × ρ)}, ¬ r.Ok → ∀ s, r ≠ .ok s := fun h s hs => h ⟨s, hs⟩
    refine iff_of_false (hno ?_ r) (hno ?_ r) <;> rw [MSMEG2.prove_dom] <;> intro h <;> apply hdom
    · obtain ⟨hx, hy, -, -, -, hu, hv⟩ := h
      exact ⟨List.length_ofFn (f := x) ▸ List.length_pos_iff.mpr hx, List.length_ofFn (f := y) ▸ List.length_pos_iff.mpr hy, hu, hv⟩
    · obtain ⟨hx, hy, -, -, -, hu, hv⟩ := h
      exact ⟨List.length_ofFn (f := x ∘ σ) ▸ List.length_pos_iff.mpr hx, List.length_ofFn (f := y ∘ τ) ▸ List.length_pos_iff.mpr hy, hu, hv⟩

/-- C73, QuadEqu: `prove` gives the very same proof when the variables are reordered together with their randomness,
constants and the rows and columns of `gamma`. -/
theorem C73_quad_prove {m n : Nat} (σ : Equiv.Perm (Fin m)) (τ : Equiv.Perm (Fin n)) (a : Fin n → F) (b : Fin m → F)
    (γ : _root_.Matrix (Fin m) (Fin n) F) (t : F) (x : Fin m → F) (y : Fin n → F)
    (R : _root_.Matrix (Fin m) (Fin 1) F) (S : _root_.Matrix (Fin n) (Fin 1) F) (c c' : List (Com G1))
    (d d' : List (Com G2)) (sch sch' : Nat → Scheduler) (rng : ρ) :
    SameOutcome
      (QuadEqu.prove sch ⟨List.ofFn a, List.ofFn b, rows γ, t⟩ (List.ofFn x) (List.ofFn y) ⟨c, rows R⟩ ⟨d, rows S⟩ crs rng)
      (QuadEqu.prove sch' ⟨List.ofFn (a ∘ τ), List.ofFn (b ∘ σ), rows (γ.submatrix σ τ), t⟩ (List.ofFn (x ∘ σ))
        (List.ofFn (y ∘ τ)) ⟨c', rows (R.submatrix σ id)⟩ ⟨d', rows (S.submatrix τ id)⟩ crs rng) := by
  by_cases hdom : 0 < m ∧ 0 < n ∧ 2 ≤ crs.u.length ∧ 2 ≤ crs.v.length
  · obtain ⟨hm, hn, hu, hv⟩ := hdom
    obtain ⟨u0, u1, u', hu⟩ := cons2_of_length hu
    obtain ⟨v0, v1, v', hv⟩ := cons2_of_length hv
    have h1 := QuadEqu.prove_closed (self := ⟨List.ofFn a, List.ofFn b, rows γ, t⟩) (sch := sch) (xc := ⟨c, rows R⟩)
      (yc := ⟨d, rows S⟩) (crs := crs) (rng := rng) hm hn rfl rfl rfl x y rfl rfl hu hv (T := ![![_]]) rfl rfl
    have h2 := QuadEqu.prove_closed (self := ⟨List.ofFn (a ∘ τ), List.ofFn (b ∘ σ), rows (γ.submatrix σ τ), t⟩) (sch := sch')
      (xc := ⟨c', rows (R.submatrix σ id)⟩) (yc := ⟨d', rows (S.submatrix τ id)⟩) (crs := crs) (rng := rng) hm hn
      rfl rfl rfl (x ∘ σ) (y ∘ τ) rfl rfl hu hv (T := ![![_]]) rfl rfl
    refine sameOutcome_of fun r => ?_
    rw [h1, h2]
    refine Eq.congr_left (congrArg Except.ok ?_)
    refine Prod.ext (EquProof.ext' ?_ ?_ rfl rfl) rfl
    · exact congrArg List.ofFn (piVal_perm σ τ (fun i => b i • (v1 + Com2.linearMap crs.g2_gen)) (fun i => y i • (v1 + Com2.linearMap crs.g2_gen)) γ R S _ _).symm
    · exact congrArg List.ofFn (thetaVal_perm σ τ (fun i => a i • (u1 + Com1.linearMap crs.g1_gen)) (fun i => x i • (u1 + Com1.linearMap crs.g1_gen)) γ S _ _).symm
  · refine sameOutcome_of fun r => ?_
    have hno : ∀ {r : Res (EquProof F G1 G2 × ρ)}, ¬ r.Ok → ∀ s, r ≠ .ok s := fun h s hs => h ⟨s, hs⟩
    refine iff_of_false (hno ?_ r) (hno ?_ r) <;> rw [QuadEqu.prove_dom] <;> intro h <;> apply hdom
    · obtain ⟨hx, hy, -, -, -, hu, hv⟩ := h
      exact ⟨List.length_ofFn (f := x) ▸ List.length_pos_iff.mpr hx, List.length_ofFn (f := y) ▸ List.length_pos_iff.mpr hy, hu, hv⟩
    · obtain ⟨hx, hy, -, -, -, hu, hv⟩ := h
      exact ⟨List.length_ofFn (f := x ∘ σ) ▸ List.length_pos_iff.mpr hx, List.length_ofFn (f := y ∘ τ) ▸ List.length_pos_iff.mpr hy, hu, hv⟩

end prove

/-! ### Examples -/

section examples
open Ex

/-- C73: the two right variables of an accepted proof swapped. -/
example (sch : Nat → Scheduler) : ∃ c d0 d1 pfs, PPE.verify e7 (sch 0) (⟨[2, 1], [5], [[2, 1]], 1⟩ : PPE K K K K)
    ⟨⟨[c], []⟩, ⟨[d1, d0], []⟩, pfs⟩ crs7 = .ok true := by
  obtain ⟨⟨⟨cs, r⟩, ⟨ds, s⟩, pfs⟩, _, _, h⟩ := C01_ppe_complete e7 ppe7 [2] [3, 4] crs7 (0 : Nat) sch (sch 0)
    (by simp) (by simp) ppe7_dims rfl rfl ppe7_holds
  obtain ⟨_, -, -, ha, hb, -⟩ := PPE.accept_iff.mp h
  obtain ⟨c, rfl⟩ := List.length_eq_one_iff.mp hb.symm
  obtain ⟨d0, d1, rfl⟩ := List.length_eq_two.mp ha.symm
  exact ⟨c, d0, d1, pfs, ((C73_ppe_verify 1 (Equiv.swap 0 1) ![1, 2] ![5] !![1, 2] 1 ![c] ![d0, d1] r [] s [] pfs).1 true).mp h⟩

/-- C73: the same when proving. -/
example (sch : Nat → Scheduler) : PPE.prove sch (⟨[1, 2], [5], [[1, 2]], 1⟩ : PPE K K K K) [2] [3, 4] ⟨[], [[3, 6]]⟩ ⟨[], [[1, 2], [4, 5]]⟩ crs7 (0 : Nat) =
    PPE.prove sch (⟨[2, 1], [5], [[2, 1]], 1⟩ : PPE K K K K) [2] [4, 3] ⟨[], [[3, 6]]⟩ ⟨[], [[4, 5], [1, 2]]⟩ crs7 (0 : Nat) := by
  have hok : (PPE.prove sch (⟨[1, 2], [5], [[1, 2]], 1⟩ : PPE K K K K) [2] [3, 4] ⟨[], [[3, 6]]⟩ ⟨[], [[1, 2], [4, 5]]⟩ crs7 (0 : Nat)).Ok :=
    PPE.prove_dom.mpr ⟨by simp, by simp, ⟨rfl, by simp⟩, ⟨rfl, by simp⟩, ppe7_dims, by decide, by decide⟩
  obtain ⟨r, hr⟩ := hok
  rw [hr]
  exact (((C73_ppe_prove 1 (Equiv.swap 0 1) ![1, 2] ![5] !![1, 2] 1 ![2] ![3, 4] !![3, 6] !![1, 2; 4, 5] [] [] [] [] sch sch (0 : Nat)).1 r).mp hr).symm

/-- C74: an accepted proof with an unused variable added on each side. -/
example (sch : Nat → Scheduler) (c0 : Com K) (d0 : Com K) : ∃ c d pfs, PPE.verify e7 (sch 0)
    (⟨[0, 1, 2], [0, 5], [[0, 0, 0], [0, 1, 2]], 1⟩ : PPE K K K K) ⟨⟨c0 :: c, []⟩, ⟨d0 :: d, []⟩, pfs⟩ crs7 = .ok true := by
  obtain ⟨⟨⟨cs, r⟩, ⟨ds, s⟩, pfs⟩, _, _, h⟩ := C01_ppe_complete e7 ppe7 [2] [3, 4] crs7 (0 : Nat) sch (sch 0)
    (by simp) (by simp) ppe7_dims rfl rfl ppe7_holds
  obtain ⟨_, -, -, ha, hb, -⟩ := PPE.accept_iff.mp h
  obtain ⟨c, rfl⟩ := List.length_eq_one_iff.mp hb.symm
  obtain ⟨d1, d2, rfl⟩ := List.length_eq_two.mp ha.symm
  have h1 := ((C74_ppe_x ppe7 c0 [c] [d1, d2] ppe7_dims (by simp) [] r [] s pfs (sch := sch 0)).1 true).mpr h
  have h2 := ((C74_ppe_y (⟨[1, 2], [0, 5], [[0, 0], [1, 2]], 1⟩ : PPE K K K K) d0 [c0, c] [d1, d2] (by constructor <;> simp) (by simp) [] [] [] [] pfs
    (sch := sch 0)).1 true).mpr h1
  exact ⟨_, _, _, h2⟩

/-- C75: a public variable on the left, with value 3, constant 2 and coefficients 4 and 5: the constants become
`1 + 4·3` and `2 + 5·3`, the target becomes `1 - 3·2`. -/
example (sch : Scheduler) (c : Com K) (d0 d1 : Com K) (c0 : Com K) (hc0 : c0 = Com1.linearMap 3) (pfs : List (EquProof K K K)) :
    SameOutcome
      (PPE.verify e7 sch (⟨[1, 2], [2, 5], [[4, 5], [1, 2]], 1⟩ : PPE K K K K) ⟨⟨[c0, c], []⟩, ⟨[d0, d1], []⟩, pfs⟩ crs7)
      (PPE.verify e7 sch (⟨[6, 3], [5], [[1, 2]], 2⟩ : PPE K K K K) ⟨⟨[c], []⟩, ⟨[d0, d1], []⟩, pfs⟩ crs7) := by
  subst hc0
  exact C75_ppe_x ppe7 2 [4, 5] 3 [c] [d0, d1] ppe7_dims rfl (by simp) [] [] [] [] pfs


/-- C73: the two right variables of an accepted proof swapped. -/
example (sch : Nat → Scheduler) : ∃ c d0 d1 pfs, MSMEG1.verify e7 (sch 0) (⟨[2, 1], [5], [[2, 1]], 1⟩ : MSMEG1 K K)
    ⟨⟨[c], []⟩, ⟨[d1, d0], []⟩, pfs⟩ crs7 = .ok true := by
  obtain ⟨⟨⟨cs, r⟩, ⟨ds, s⟩, pfs⟩, _, _, h⟩ := C02_msmeg1_complete e7 msm1_7 [2] [3, 4] crs7 (0 : Nat) sch (sch 0)
    (by simp) (by simp) msm1_7_dims rfl rfl msm1_7_holds
  obtain ⟨_, -, -, ha, hb, -⟩ := MSMEG1.accept_iff.mp h
  obtain ⟨c, rfl⟩ := List.length_eq_one_iff.mp hb.symm
  obtain ⟨d0, d1, rfl⟩ := List.length_eq_two.mp ha.symm
  exact ⟨c, d0, d1, pfs, ((C73_msmeg1_verify 1 (Equiv.swap 0 1) ![1, 2] ![5] !![1, 2] 1 ![c] ![d0, d1] r [] s [] pfs).1 true).mp h⟩

/-- C73: the same when proving. -/
example (sch : Nat → Scheduler) : MSMEG1.prove sch (⟨[1, 2], [5], [[1, 2]], 1⟩ : MSMEG1 K K) [2] [3, 4] ⟨[], [[3, 6]]⟩ ⟨[], [[1], [4]]⟩ crs7 (0 : Nat) =
    MSMEG1.prove sch (⟨[2, 1], [5], [[2, 1]], 1⟩ : MSMEG1 K K) [2] [4, 3] ⟨[], [[3, 6]]⟩ ⟨[], [[4], [1]]⟩ crs7 (0 : Nat) := by
  have hok : (MSMEG1.prove sch (⟨[1, 2], [5], [[1, 2]], 1⟩ : MSMEG1 K K) [2] [3, 4] ⟨[], [[3, 6]]⟩ ⟨[], [[1], [4]]⟩ crs7 (0 : Nat)).Ok :=
    MSMEG1.prove_dom.mpr ⟨by simp, by simp, ⟨rfl, by simp⟩, ⟨rfl, by simp⟩, msm1_7_dims, by decide, by decide⟩
  obtain ⟨r, hr⟩ := hok
  rw [hr]
  exact (((C73_msmeg1_prove 1 (Equiv.swap 0 1) ![1, 2] ![5] !![1, 2] 1 ![2] ![3, 4] !![3, 6] !![1; 4] [] [] [] [] sch sch (0 : Nat)).1 r).mp hr).symm

/-- C74: an accepted proof with an unused variable added on each side. -/
example (sch : Nat → Scheduler) (c0 : Com K) (d0 : Com K) : ∃ c d pfs, MSMEG1.verify e7 (sch 0)
    (⟨[0, 1, 2], [0, 5], [[0, 0, 0], [0, 1, 2]], 1⟩ : MSMEG1 K K) ⟨⟨c0 :: c, []⟩, ⟨d0 :: d, []⟩, pfs⟩ crs7 = .ok true := by
  obtain ⟨⟨⟨cs, r⟩, ⟨ds, s⟩, pfs⟩, _, _, h⟩ := C02_msmeg1_complete e7 msm1_7 [2] [3, 4] crs7 (0 : Nat) sch (sch 0)
    (by simp) (by simp) msm1_7_dims rfl rfl msm1_7_holds
  obtain ⟨_, -, -, ha, hb, -⟩ := MSMEG1.accept_iff.mp h
  obtain ⟨c, rfl⟩ := List.length_eq_one_iff.mp hb.symm
  obtain ⟨d1, d2, rfl⟩ := List.length_eq_two.mp ha.symm
  have h1 := ((C74_msmeg1_x msm1_7 c0 [c] [d1, d2] msm1_7_dims (by simp) [] r [] s pfs (sch := sch 0)).1 true).mpr h
  have h2 := ((C74_msmeg1_y (⟨[1, 2], [0, 5], [[0, 0], [1, 2]], 1⟩ : MSMEG1 K K) d0 [c0, c] [d1, d2] (by constructor <;> simp) (by simp) [] [] [] [] pfs
    (sch := sch 0)).1 true).mpr h1
  exact ⟨_, _, _, h2⟩

/-- C75: a public variable on the left, with value 3, constant 2 and coefficients 4 and 5: the constants become
`1 + 4·3` and `2 + 5·3`, the target becomes `1 - 3·2`. -/
example (sch : Scheduler) (c : Com K) (d0 d1 : Com K) (c0 : Com K) (hc0 : c0 = Com1.linearMap 3) (pfs : List (EquProof K K K)) :
    SameOutcome
      (MSMEG1.verify e7 sch (⟨[1, 2], [2, 5], [[4, 5], [1, 2]], 1⟩ : MSMEG1 K K) ⟨⟨[c0, c], []⟩, ⟨[d0, d1], []⟩, pfs⟩ crs7)
      (MSMEG1.verify e7 sch (⟨[6, 3], [5], [[1, 2]], 2⟩ : MSMEG1 K K) ⟨⟨[c], []⟩, ⟨[d0, d1], []⟩, pfs⟩ crs7) := by
  subst hc0
  exact C75_msmeg1_x msm1_7 2 [4, 5] 3 [c] [d0, d1] msm1_7_dims rfl (by simp) [] [] [] [] pfs


/-- C73: the two right variables of an accepted proof swapped. -/
example (sch : Nat → Scheduler) : ∃ c d0 d1 pfs, MSMEG2.verify e7 (sch 0) (⟨[2, 1], [5], [[2, 1]], 1⟩ : MSMEG2 K K)
    ⟨⟨[c], []⟩, ⟨[d1, d0], []⟩, pfs⟩ crs7 = .ok true := by
  obtain ⟨⟨⟨cs, r⟩, ⟨ds, s⟩, pfs⟩, _, _, h⟩ := C03_msmeg2_complete e7 msm2_7 [2] [3, 4] crs7 (0 : Nat) sch (sch 0)
    (by simp) (by simp) msm2_7_dims rfl rfl msm2_7_holds
  obtain ⟨_, -, -, ha, hb, -⟩ := MSMEG2.accept_iff.mp h
  obtain ⟨c, rfl⟩ := List.length_eq_one_iff.mp hb.symm
  obtain ⟨d0, d1, rfl⟩ := List.length_eq_two.mp ha.symm
  exact ⟨c, d0, d1, pfs, ((C73_msmeg2_verify 1 (Equiv.swap 0 1) ![1, 2] ![5] !![1, 2] 1 ![c] ![d0, d1] r [] s [] pfs).1 true).mp h⟩

/-- C73: the same when proving. -/
example (sch : Nat → Scheduler) : MSMEG2.prove sch (⟨[1, 2], [5], [[1, 2]], 1⟩ : MSMEG2 K K) [2] [3, 4] ⟨[], [[3]]⟩ ⟨[], [[1, 2], [4, 5]]⟩ crs7 (0 : Nat) =
    MSMEG2.prove sch (⟨[2, 1], [5], [[2, 1]], 1⟩ : MSMEG2 K K) [2] [4, 3] ⟨[], [[3]]⟩ ⟨[], [[4, 5], [1, 2]]⟩ crs7 (0 : Nat) := by
  have hok : (MSMEG2.prove sch (⟨[1, 2], [5], [[1, 2]], 1⟩ : MSMEG2 K K) [2] [3, 4] ⟨[], [[3]]⟩ ⟨[], [[1, 2], [4, 5]]⟩ crs7 (0 : Nat)).Ok :=
    MSMEG2.prove_dom.mpr ⟨by simp, by simp, ⟨rfl, by simp⟩, ⟨rfl, by simp⟩, msm2_7_dims, by decide, by decide⟩
  obtain ⟨r, hr⟩ := hok
  rw [hr]
  exact (((C73_msmeg2_prove 1 (Equiv.swap 0 1) ![1, 2] ![5] !![1, 2] 1 ![2] ![3, 4] !![3] !![1, 2; 4, 5] [] [] [] [] sch sch (0 : Nat)).1 r).mp hr).symm

/-- C74: an accepted proof with an unused variable added on each side. -/
example (sch : Nat → Scheduler) (c0 : Com K) (d0 : Com K) : ∃ c d pfs, MSMEG2.verify e7 (sch 0)
    (⟨[0, 1, 2], [0, 5], [[0, 0, 0], [0, 1, 2]], 1⟩ : MSMEG2 K K) ⟨⟨c0 :: c, []⟩, ⟨d0 :: d, []⟩, pfs⟩ crs7 = .ok true := by
  obtain ⟨⟨⟨cs, r⟩, ⟨ds, s⟩, pfs⟩, _, _, h⟩ := C03_msmeg2_complete e7 msm2_7 [2] [3, 4] crs7 (0 : Nat) sch (sch 0)
    (by simp) (by simp) msm2_7_dims rfl rfl msm2_7_holds
  obtain ⟨_, -, -, ha, hb, -⟩ := MSMEG2.accept_iff.mp h
  obtain ⟨c, rfl⟩ := List.length_eq_one_iff.mp hb.symm
  obtain ⟨d1, d2, rfl⟩ := List.length_eq_two.mp ha.symm
  have h1 := ((C74_msmeg2_x msm2_7 c0 [c] [d1, d2] msm2_7_dims (by simp) [] r [] s pfs (sch := sch 0)).1 true).mpr h
  have h2 := ((C74_msmeg2_y (⟨[1, 2], [0, 5], [[0, 0], [1, 2]], 1⟩ : MSMEG2 K K) d0 [c0, c] [d1, d2] (by constructor <;> simp) (by simp) [] [] [] [] pfs
    (sch := sch 0)).1 true).mpr h1
  exact ⟨_, _, _, h2⟩

/-- C75: a public variable on the left, with value 3, constant 2 and coefficients 4 and 5: the constants become
`1 + 4·3` and `2 + 5·3`, the target becomes `1 - 3·2`. -/
example (sch : Scheduler) (c : Com K) (d0 d1 : Com K) (c0 : Com K) (hc0 : Com1.scalarLinearMap (3 : K) crs7 = .ok c0) (pfs : List (EquProof K K K)) :
    SameOutcome
      (MSMEG2.verify e7 sch (⟨[1, 2], [2, 5], [[4, 5], [1, 2]], 1⟩ : MSMEG2 K K) ⟨⟨[c0, c], []⟩, ⟨[d0, d1], []⟩, pfs⟩ crs7)
      (MSMEG2.verify e7 sch (⟨[6, 3], [5], [[1, 2]], 2⟩ : MSMEG2 K K) ⟨⟨[c], []⟩, ⟨[d0, d1], []⟩, pfs⟩ crs7) := by
  exact C75_msmeg2_x msm2_7 2 [4, 5] 3 hc0 [c] [d0, d1] msm2_7_dims rfl (by simp) [] [] [] [] pfs


/-- C73: the two right variables of an accepted proof swapped. -/
example (sch : Nat → Scheduler) : ∃ c d0 d1 pfs, QuadEqu.verify e7 (sch 0) (⟨[2, 1], [5], [[2, 1]], 1⟩ : QuadEqu K)
    ⟨⟨[c], []⟩, ⟨[d1, d0], []⟩, pfs⟩ crs7 = .ok true := by
  obtain ⟨⟨⟨cs, r⟩, ⟨ds, s⟩, pfs⟩, _, _, h⟩ := C04_quad_complete e7 quad7 [2] [3, 4] crs7 (0 : Nat) sch (sch 0)
    (by simp) (by simp) quad7_dims rfl rfl quad7_holds
  obtain ⟨_, -, -, ha, hb, -⟩ := QuadEqu.accept_iff.mp h
  obtain ⟨c, rfl⟩ := List.length_eq_one_iff.mp hb.symm
  obtain ⟨d0, d1, rfl⟩ := List.length_eq_two.mp ha.symm
  exact ⟨c, d0, d1, pfs, ((C73_quad_verify 1 (Equiv.swap 0 1) ![1, 2] ![5] !![1, 2] 1 ![c] ![d0, d1] r [] s [] pfs).1 true).mp h⟩

/-- C73: the same when proving. -/
example (sch : Nat → Scheduler) : QuadEqu.prove sch (⟨[1, 2], [5], [[1, 2]], 1⟩ : QuadEqu K) [2] [3, 4] ⟨[], [[3]]⟩ ⟨[], [[1], [4]]⟩ crs7 (0 : Nat) =
    QuadEqu.prove sch (⟨[2, 1], [5], [[2, 1]], 1⟩ : QuadEqu K) [2] [4, 3] ⟨[], [[3]]⟩ ⟨[], [[4], [1]]⟩ crs7 (0 : Nat) := by
  have hok : (QuadEqu.prove sch (⟨[1, 2], [5], [[1, 2]], 1⟩ : QuadEqu K) [2] [3, 4] ⟨[], [[3]]⟩ ⟨[], [[1], [4]]⟩ crs7 (0 : Nat)).Ok :=
    QuadEqu.prove_dom.mpr ⟨by simp, by simp, ⟨rfl, by simp⟩, ⟨rfl, by simp⟩, quad7_dims, by decide, by decide⟩
  obtain ⟨r, hr⟩ := hok
  rw [hr]
  exact (((C73_quad_prove 1 (Equiv.swap 0 1) ![1, 2] ![5] !![1, 2] 1 ![2] ![3, 4] !![3] !![1; 4] [] [] [] [] sch sch (0 : Nat)).1 r).mp hr).symm

/-- C74: an accepted proof with an unused variable added on each side. -/
example (sch : Nat → Scheduler) (c0 : Com K) (d0 : Com K) : ∃ c d pfs, QuadEqu.verify e7 (sch 0)
    (⟨[0, 1, 2], [0, 5], [[0, 0, 0], [0, 1, 2]], 1⟩ : QuadEqu K) ⟨⟨c0 :: c, []⟩, ⟨d0 :: d, []⟩, pfs⟩ crs7 = .ok true := by
  obtain ⟨⟨⟨cs, r⟩, ⟨ds, s⟩, pfs⟩, _, _, h⟩ := C04_quad_complete e7 quad7 [2] [3, 4] crs7 (0 : Nat) sch (sch 0)
    (by simp) (by simp) quad7_dims rfl rfl quad7_holds
  obtain ⟨_, -, -, ha, hb, -⟩ := QuadEqu.accept_iff.mp h
  obtain ⟨c, rfl⟩ := List.length_eq_one_iff.mp hb.symm
  obtain ⟨d1, d2, rfl⟩ := List.length_eq_two.mp ha.symm
  have h1 := ((C74_quad_x quad7 c0 [c] [d1, d2] quad7_dims (by simp) [] r [] s pfs (sch := sch 0)).1 true).mpr h
  have h2 := ((C74_quad_y (⟨[1, 2], [0, 5], [[0, 0], [1, 2]], 1⟩ : QuadEqu K) d0 [c0, c] [d1, d2] (by constructor <;> simp) (by simp) [] [] [] [] pfs
    (sch := sch 0)).1 true).mpr h1
  exact ⟨_, _, _, h2⟩

/-- C75: a public variable on the left, with value 3, constant 2 and coefficients 4 and 5: the constants become
`1 + 4·3` and `2 + 5·3`, the target becomes `1 - 3·2`. -/
example (sch : Scheduler) (c : Com K) (d0 d1 : Com K) (c0 : Com K) (hc0 : Com1.scalarLinearMap (3 : K) crs7 = .ok c0) (pfs : List (EquProof K K K)) :
    SameOutcome
      (QuadEqu.verify e7 sch (⟨[1, 2], [2, 5], [[4, 5], [1, 2]], 1⟩ : QuadEqu K) ⟨⟨[c0, c], []⟩, ⟨[d0, d1], []⟩, pfs⟩ crs7)
      (QuadEqu.verify e7 sch (⟨[6, 3], [5], [[1, 2]], 2⟩ : QuadEqu K) ⟨⟨[c], []⟩, ⟨[d0, d1], []⟩, pfs⟩ crs7) := by
  exact C75_quad_x quad7 2 [4, 5] 3 hc0 [c] [d0, d1] quad7_dims rfl (by simp) [] [] [] [] pfs

end examples

/-! ### Instances -/

namespace Ex

example (sch sch' : Scheduler) (c d0 d1 : Com K) (pfs : List (EquProof K K K)) :=
  C75_ppe_y (e := e7) (crs := crs7) (sch := sch) (sch' := sch') ppe7 2 [4] 3 [c] [d0, d1] ppe7_dims rfl (by simp) [] [] [] [] pfs
example (sch sch' : Scheduler) (c d0 d1 : Com K) (pfs : List (EquProof K K K)) :=
  C75_msmeg1_y (e := e7) (crs := crs7) (sch := sch) (sch' := sch') msm1_7 2 [4] 3 rfl [c] [d0, d1] msm1_7_dims rfl (by simp) [] [] [] [] pfs
example (sch sch' : Scheduler) (c d0 d1 : Com K) (pfs : List (EquProof K K K)) :=
  C75_msmeg2_y (e := e7) (crs := crs7) (sch := sch) (sch' := sch') msm2_7 2 [4] 3 [c] [d0, d1] msm2_7_dims rfl (by simp) [] [] [] [] pfs
example (sch sch' : Scheduler) (c d0 d1 : Com K) (pfs : List (EquProof K K K)) :=
  C75_quad_y (e := e7) (crs := crs7) (sch := sch) (sch' := sch') quad7 2 [4] 3 rfl [c] [d0, d1] quad7_dims rfl (by simp) [] [] [] [] pfs

end Ex

end GS
