import Verif.Model.Prove
import Verif.Lemmas.Commit
import Verif.Lemmas.Identity

/-! The common computation of the four provers: exact success domain and closed form. -/

set_option linter.unusedSectionVars false
set_option linter.unusedVariables false

namespace GS
variable {F G1 G2 GT : Type} [Field F] [AddCommGroup G1] [Module F G1] [AddCommGroup G2] [Module F G2]
variable {ρ : Type}

/-- The common text of the four provers, with the random matrix `T`, the linear images and the key
columns as parameters. -/
def proveCore (sch : Nat → Scheduler) (ty : EquType) (p q xlen ylen : Nat) (R S gamma T : Matrix F)
    (lb ly : Res (List (Com G2))) (V : Res (Matrix (Com G2)))
    (la lx : Res (List (Com G1))) (U : Res (Matrix (Com G1))) (rng : ρ) : Res (EquProof F G1 G2 × ρ) := do
  assertEq xlen R.length
  assertEq gamma.length R.length
  assertEq (← idx R 0).length p
  assertEq ylen S.length
  assertEq (← idx gamma 0).length S.length
  assertEq (← idx S 0).length q
  let x_rand_trans ← FieldMat.transpose R
  let y_rand_trans ← FieldMat.transpose S
  let x_rand_lin_b ← ComMat.leftMul (sch 0) (vecToColVec (← lb)) x_rand_trans true
  let x_rand_stmt ← FieldMat.rightMul (sch 1) x_rand_trans gamma true
  let x_rand_stmt_lin_y ← ComMat.leftMul (sch 2) (vecToColVec (← ly)) x_rand_stmt true
  let pf_rand_stmt ← FieldMat.add
    (← FieldMat.rightMul (sch 4) (← FieldMat.rightMul (sch 3) x_rand_trans gamma true) S true)
    (← FieldMat.neg (← FieldMat.transpose T))
  let v1 ← V
  let pf_rand_stmt_com2 ← ComMat.leftMul (sch 5) v1 pf_rand_stmt true
  let pi ← colVecToVec (← ComMat.add (← ComMat.add x_rand_lin_b x_rand_stmt_lin_y) pf_rand_stmt_com2)
  assertEq pi.length p
  let y_rand_lin_a ← ComMat.leftMul (sch 6) (vecToColVec (← la)) y_rand_trans true
  let y_rand_stmt ← FieldMat.rightMul (sch 7) y_rand_trans (← FieldMat.transpose gamma) true
  let y_rand_stmt_lin_x ← ComMat.leftMul (sch 8) (vecToColVec (← lx)) y_rand_stmt true
  let u1 ← U
  let pf_rand_com1 ← ComMat.leftMul (sch 9) u1 T true
  let theta ← colVecToVec (← ComMat.add (← ComMat.add y_rand_lin_a y_rand_stmt_lin_x) pf_rand_com1)
  assertEq theta.length q
  pure (⟨pi, theta, ty, T⟩, rng)

section
variable [Rng ρ F G1 G2]

/-- The first draw. -/
abbrev d1 (F : Type) {ρ : Type} (G1 G2 : Type) [Rng ρ F G1 G2] (rng : ρ) : F × ρ := Rng.randF G1 G2 rng

theorem PPE.prove_eq (sch : Nat → Scheduler) (self : PPE F G1 G2 GT) (xvars : List G1) (yvars : List G2)
    (xcoms : Commit F G1) (ycoms : Commit F G2) (crs : CRS G1 G2 GT) (rng : ρ) :
    self.prove sch xvars yvars xcoms ycoms crs rng =
      proveCore sch .PairingProduct 2 2 xvars.length yvars.length xcoms.rand ycoms.rand self.gamma
        [[(d1 F G1 G2 rng).1, (d1 F G1 G2 (d1 F G1 G2 rng).2).1],
          [(d1 F G1 G2 (d1 F G1 G2 (d1 F G1 G2 rng).2).2).1,
           (d1 F G1 G2 (d1 F G1 G2 (d1 F G1 G2 (d1 F G1 G2 rng).2).2).2).1]]
        (.ok (Com2.batchLinearMap self.b_consts)) (.ok (Com2.batchLinearMap yvars)) (.ok (vecToColVec crs.v))
        (.ok (Com1.batchLinearMap self.a_consts)) (.ok (Com1.batchLinearMap xvars)) (.ok (vecToColVec crs.u))
        (d1 F G1 G2 (d1 F G1 G2 (d1 F G1 G2 (d1 F G1 G2 rng).2).2).2).2 := rfl

theorem MSMEG1.prove_eq (sch : Nat → Scheduler) (self : MSMEG1 F G1) (xvars : List G1) (yvars : List F)
    (xcoms : Commit F G1) (ycoms : Commit F G2) (crs : CRS G1 G2 GT) (rng : ρ) :
    self.prove sch xvars yvars xcoms ycoms crs rng =
      proveCore sch .MultiScalarG1 2 1 xvars.length yvars.length xcoms.rand ycoms.rand self.gamma
        [[(d1 F G1 G2 rng).1, (d1 F G1 G2 (d1 F G1 G2 rng).2).1]]
        (Com2.batchScalarLinearMap self.b_consts crs) (Com2.batchScalarLinearMap yvars crs)
        (do pure [[← idx crs.v 0]])
        (.ok (Com1.batchLinearMap self.a_consts)) (.ok (Com1.batchLinearMap xvars)) (.ok (vecToColVec crs.u))
        (d1 F G1 G2 (d1 F G1 G2 rng).2).2 := by
  simp only [MSMEG1.prove, proveCore, bind_assoc, pure_bind, ok_bind]

theorem MSMEG2.prove_eq (sch : Nat → Scheduler) (self : MSMEG2 F G2) (xvars : List F) (yvars : List G2)
    (xcoms : Commit F G1) (ycoms : Commit F G2) (crs : CRS G1 G2 GT) (rng : ρ) :
    self.prove sch xvars yvars xcoms ycoms crs rng =
      proveCore sch .MultiScalarG2 1 2 xvars.length yvars.length xcoms.rand ycoms.rand self.gamma
        [[(d1 F G1 G2 rng).1], [(d1 F G1 G2 (d1 F G1 G2 rng).2).1]]
        (.ok (Com2.batchLinearMap self.b_consts)) (.ok (Com2.batchLinearMap yvars)) (.ok (vecToColVec crs.v))
        (Com1.batchScalarLinearMap self.a_consts crs) (Com1.batchScalarLinearMap xvars crs)
        (do pure [[← idx crs.u 0]])
        (d1 F G1 G2 (d1 F G1 G2 rng).2).2 := by
  simp only [MSMEG2.prove, proveCore, bind_assoc, pure_bind, ok_bind]

theorem QuadEqu.prove_eq (sch : Nat → Scheduler) (self : QuadEqu F) (xvars yvars : List F)
    (xcoms : Commit F G1) (ycoms : Commit F G2) (crs : CRS G1 G2 GT) (rng : ρ) :
    self.prove sch xvars yvars xcoms ycoms crs rng =
      proveCore sch .Quadratic 1 1 xvars.length yvars.length xcoms.rand ycoms.rand self.gamma
        [[(d1 F G1 G2 rng).1]]
        (Com2.batchScalarLinearMap self.b_consts crs) (Com2.batchScalarLinearMap yvars crs)
        (do pure [[← idx crs.v 0]])
        (Com1.batchScalarLinearMap self.a_consts crs) (Com1.batchScalarLinearMap xvars crs)
        (do pure [[← idx crs.u 0]])
        (d1 F G1 G2 rng).2 := by
  simp only [QuadEqu.prove, proveCore, bind_assoc, pure_bind]

end

section closed
variable {m n p q : Nat}

theorem proveCore_matOf (sch : Nat → Scheduler) (ty : EquType) (hm : 0 < m) (hn : 0 < n) (hp : 0 < p) (hq : 0 < q)
    (R : Fin m → Fin p → F) (S : Fin n → Fin q → F) (γ : Fin m → Fin n → F) (T : Fin q → Fin p → F)
    (b : Fin m → Com G2) (y : Fin n → Com G2) (v : Fin q → Com G2)
    (a : Fin n → Com G1) (x : Fin m → Com G1) (u : Fin p → Com G1) (rng : ρ) :
    proveCore sch ty p q m n (matOf R) (matOf S) (matOf γ) (matOf T)
      (.ok (List.ofFn b)) (.ok (List.ofFn y)) (.ok (vecToColVec (List.ofFn v)))
      (.ok (List.ofFn a)) (.ok (List.ofFn x)) (.ok (vecToColVec (List.ofFn u))) rng =
    .ok (⟨List.ofFn (piVal b y γ R S T v), List.ofFn (thetaVal a x γ S T u), ty, matOf T⟩, rng) := by
  have one : 0 < 1 := Nat.one_pos
  simp only [proveCore, length_matOf, assertEq_self, ok_bind, idx_matOf_lt R hm, idx_matOf_lt S hn,
    idx_matOf_lt γ hm, List.length_ofFn, FieldMat.transpose_matOf hm, FieldMat.transpose_matOf hn,
    FieldMat.transpose_matOf hq, vecToColVec_ofFn, ComMat.leftMul_matOf hp hm one,
    FieldMat.rightMul_matOf hp hm hn, ComMat.leftMul_matOf hp hn one, FieldMat.rightMul_matOf hp hn hq,
    FieldMat.neg_matOf, FieldMat.add_matOf hp, ComMat.leftMul_matOf hp hq one, ComMat.add_matOf hp,
    colVecToVec_matOf, ComMat.leftMul_matOf hq hn one, FieldMat.rightMul_matOf hq hn hm,
    ComMat.leftMul_matOf hq hm one, ComMat.leftMul_matOf hq hp one, ComMat.add_matOf hq, pure_eq_ok]
  rfl

end closed

/-! ### Exact success domain -/

theorem product_shape {α β γ : Type} [AddCommMonoid γ] {L : Matrix α} {R : Matrix β} {term : α → β → γ}
    {M : Matrix γ} (h : IsProduct L R term M) (hM : M ≠ []) :
    L ≠ [] ∧ firstRowLen L = .ok R.length ∧ (∀ r ∈ L, R.length ≤ r.length) ∧ 0 < R.length ∧ M.length = L.length ∧
    ∃ n, 0 < n ∧ firstRowLen R = .ok n ∧ (∀ r ∈ R, n ≤ r.length) ∧ Rect L.length n M := by
  rcases h with ⟨-, rfl⟩ | ⟨dim, n, f, g, hd, hn, rfl, h4, h5, h6, h7, rfl⟩
  · exact absurd rfl hM
  · refine ⟨?_, h4, (exists_reads_iff rfl hd).mp ⟨f, h6⟩, hd, by simp, n, hn, h5,
      (exists_reads_iff rfl hn).mp ⟨g, h7⟩, rect_matOf _⟩
    rintro rfl
    simp [firstRowLen] at h4

theorem addG_ne {α : Type} [Add α] {A B M : Matrix α} (h : addG A B = .ok M) : A ≠ [] ∧ B ≠ [] ∧ M ≠ [] := by
  obtain ⟨h1, n, h2, -, f, g, -, -, rfl⟩ := addG_iff.mp h
  have hA : A ≠ [] := by rintro rfl; simp [firstRowLen] at h2
  have : 0 < A.length := List.length_pos_iff.mpr hA
  refine ⟨hA, ?_, ?_⟩
  · rintro rfl; simp at h1; exact hA h1
  · intro h; have := congrArg List.length h; simp at this; exact hA this

theorem rect_of_transpose {α : Type} {A At : Matrix α} {p m : Nat} (h : transposeG A = .ok At)
    (hp : 0 < p) (h0 : firstRowLen A = .ok p) (hm : A.length = m)
    (hrow : ∀ r ∈ At, m ≤ r.length) : Rect m p A := by
  obtain ⟨n, h1, h2, rfl⟩ := transposeG_iff.mp h
  rw [h0] at h1; cases h1
  refine ⟨hm, fun r hr => le_antisymm (h2 r hr) ?_⟩
  have := hrow (A.filterMap fun r => r[p - 1]?) (List.mem_map.mpr ⟨p - 1, by simp; omega, rfl⟩)
  rw [← hm] at this
  have hall := List.filterMap_length_eq_length.mp (le_antisymm (List.length_filterMap_le ..) this) r hr
  simp only [Option.isSome_iff_exists, List.getElem?_eq_some_iff] at hall
  obtain ⟨a, h, -⟩ := hall
  omega

theorem proveCore_dims {sch : Nat → Scheduler} {ty : EquType} {p q xlen ylen : Nat} (hp : 0 < p) (hq : 0 < q)
    {R S gamma : Matrix F} {T : Fin q → Fin p → F}
    {lb ly : Res (List (Com G2))} {V : Res (Matrix (Com G2))}
    {la lx : Res (List (Com G1))} {U : Res (Matrix (Com G1))} {rng : ρ} {r : EquProof F G1 G2 × ρ}
    (h : proveCore sch ty p q xlen ylen R S gamma (matOf T) lb ly V la lx U rng = .ok r) :
    0 < xlen ∧ 0 < ylen ∧ Rect xlen p R ∧ Rect ylen q S ∧ Rect xlen ylen gamma ∧
    (∃ l, lb = .ok l ∧ l.length = xlen) ∧ (∃ l, ly = .ok l ∧ l.length = ylen) ∧
    (∃ l, la = .ok l ∧ l.length = ylen) ∧ (∃ l, lx = .ok l ∧ l.length = xlen) ∧
    (∃ l, V = .ok l ∧ l.length = q) ∧ (∃ l, U = .ok l ∧ l.length = p) := by
  simp only [proveCore, bind_ok_iff, assertEq_ok_iff, exists_const] at h
  obtain ⟨hx, hγx, R0, hR0, hR0p, hy, γ0, hγ0, hγ0n, S0, hS0, hS0q, Rt, hRt, St, hSt, lb', hlb, xb, hxb, xs, hxs,
    ly', hly, xy, hxy, w1, hw1, w2, hw2, Tt, hTt, nTt, hnTt, ps, hps, v', hV, pc, hpc, s1, hs1, s2, hs2, pi, hpi, hpil,
    la', hla, ya, hya, γt, hγt, ys, hys, lx', hlx, yx, hyx, u', hU, pc1, hpc1, s3, hs3, s4, hs4, th, hth, hthl, -⟩ := h
  have fR : firstRowLen R = .ok p := firstRowLen_iff.mpr ⟨R0, idx_eq_ok.mp hR0, hR0p⟩
  have fS : firstRowLen S = .ok q := firstRowLen_iff.mpr ⟨S0, idx_eq_ok.mp hS0, hS0q⟩
  have fγ : firstRowLen gamma = .ok S.length := firstRowLen_iff.mpr ⟨γ0, idx_eq_ok.mp hγ0, hγ0n⟩
  have hs1' := addG_ne hs1
  have hs2' := addG_ne hs2
  have hs3' := addG_ne hs3
  have hs4' := addG_ne hs4
  have hps' := addG_ne hps
  have Sne : S ≠ [] := by rintro rfl; simp [firstRowLen] at fS
  have Rne : R ≠ [] := by rintro rfl; simp [firstRowLen] at fR
  have hxpos : 0 < xlen := hx ▸ List.length_pos_iff.mpr Rne
  have hypos : 0 < ylen := hy ▸ List.length_pos_iff.mpr Sne
  -- products
  have p0 := product_shape (ComMat.leftMul_iff.mp hxb) hs1'.1
  have p2 := product_shape (ComMat.leftMul_iff.mp hxy) hs1'.2.1
  have p4 := product_shape (FieldMat.rightMul_iff.mp hw2) hps'.1
  have p3 := product_shape (FieldMat.rightMul_iff.mp hw1) p4.1
  have p5 := product_shape (ComMat.leftMul_iff.mp hpc) hs2'.2.1
  have p6 := product_shape (ComMat.leftMul_iff.mp hya) hs3'.1
  have p8 := product_shape (ComMat.leftMul_iff.mp hyx) hs3'.2.1
  have p7 := product_shape (FieldMat.rightMul_iff.mp hys) p8.1
  have p9 := product_shape (ComMat.leftMul_iff.mp hpc1) hs4'.2.1
  -- R is rectangular
  have rR : Rect xlen p R := rect_of_transpose hRt hp fR hx.symm (by
    intro r hr; have := p3.2.2.1 r hr; omega)
  -- S is rectangular
  have rS : Rect ylen q S := by
    obtain ⟨n1, h1, h2, -⟩ := transposeG_iff.mp hSt
    rw [fS] at h1; cases h1
    obtain ⟨-, -, -, -, -, n2, -, h5, h6, -⟩ := p4
    rw [fS] at h5; cases h5
    exact ⟨hy.symm, fun r hr => le_antisymm (h2 r hr) (h6 r hr)⟩
  -- gamma is rectangular
  have rγ : Rect xlen ylen gamma := by
    obtain ⟨n1, h1, h2, -⟩ := transposeG_iff.mp hγt
    rw [fγ] at h1; cases h1
    obtain ⟨-, -, -, -, -, n2, -, h5, h6, -⟩ := p3
    rw [fγ] at h5; cases h5
    exact ⟨by omega, fun r hr => le_antisymm (hy ▸ h2 r hr) (hy ▸ h6 r hr)⟩
  obtain ⟨R', rfl⟩ := rect_iff.mp rR
  obtain ⟨S', rfl⟩ := rect_iff.mp rS
  obtain ⟨γ', rfl⟩ := rect_iff.mp rγ
  rw [FieldMat.transpose_matOf hxpos] at hRt
  rw [FieldMat.transpose_matOf hypos] at hSt
  rw [FieldMat.transpose_matOf hxpos] at hγt
  rw [FieldMat.transpose_matOf hq] at hTt
  cases hRt; cases hSt; cases hγt; cases hTt
  rw [FieldMat.rightMul_matOf hp hxpos hypos] at hw1 hxs
  rw [FieldMat.neg_matOf] at hnTt
  rw [FieldMat.rightMul_matOf hq hypos hxpos] at hys
  cases hw1; cases hxs; cases hnTt; cases hys
  rw [FieldMat.rightMul_matOf hp hypos hq] at hw2
  cases hw2
  rw [FieldMat.add_matOf hp] at hps
  cases hps
  have l0 := p0.2.1; rw [firstRowLen_matOf hp] at l0; simp only [length_vecToColVec, Except.ok.injEq] at l0
  have l2 := p2.2.1; rw [firstRowLen_matOf hp] at l2; simp only [length_vecToColVec, Except.ok.injEq] at l2
  have l5 := p5.2.1; rw [firstRowLen_matOf hp] at l5; simp only [Except.ok.injEq] at l5
  have l6 := p6.2.1; rw [firstRowLen_matOf hq] at l6; simp only [length_vecToColVec, Except.ok.injEq] at l6
  have l8 := p8.2.1; rw [firstRowLen_matOf hq] at l8; simp only [length_vecToColVec, Except.ok.injEq] at l8
  have l9 := p9.2.1; rw [firstRowLen_matOf hq] at l9; simp only [Except.ok.injEq] at l9
  exact ⟨hxpos, hypos, rR, rS, rγ, ⟨_, hlb, l0.symm⟩, ⟨_, hly, l2.symm⟩, ⟨_, hla, l6.symm⟩, ⟨_, hlx, l8.symm⟩,
    ⟨_, hV, l5.symm⟩, ⟨_, hU, l9.symm⟩⟩

end GS
