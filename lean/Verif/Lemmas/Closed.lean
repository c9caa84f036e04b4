import Verif.Lemmas.Honest
import Verif.Lemmas.Complete

/-! Closed forms of the four provers, their exact domains, and independence of the schedule. -/

set_option linter.unusedSectionVars false
set_option linter.unusedVariables false

namespace GS
variable {F G1 G2 GT : Type} [Field F] [AddCommGroup G1] [Module F G1] [AddCommGroup G2] [Module F G2]

/-! ### Schedules and the random number generator -/

section
variable {ρ : Type}

theorem proveCore_sch {sch sch' : Nat → Scheduler} {ty : EquType} {p q xlen ylen : Nat} {R S gamma T : Matrix F}
    {lb ly : Res (List (Com G2))} {V : Res (Matrix (Com G2))}
    {la lx : Res (List (Com G1))} {U : Res (Matrix (Com G1))} {rng : ρ} {r : EquProof F G1 G2 × ρ} :
    proveCore sch ty p q xlen ylen R S gamma T lb ly V la lx U rng = .ok r ↔
    proveCore sch' ty p q xlen ylen R S gamma T lb ly V la lx U rng = .ok r := by
  simp only [proveCore, bind_ok_iff, ComMat.leftMul_iff, FieldMat.rightMul_iff]

theorem proveCore_rng {sch : Nat → Scheduler} {ty : EquType} {p q xlen ylen : Nat} {R S gamma T : Matrix F}
    {lb ly : Res (List (Com G2))} {V : Res (Matrix (Com G2))}
    {la lx : Res (List (Com G1))} {U : Res (Matrix (Com G1))} {rng rng' : ρ} {pf : EquProof F G1 G2} :
    proveCore sch ty p q xlen ylen R S gamma T lb ly V la lx U rng = .ok (pf, rng') ↔
    rng' = rng ∧ proveCore sch ty p q xlen ylen R S gamma T lb ly V la lx U () = .ok (pf, ()) := by
  have : proveCore sch ty p q xlen ylen R S gamma T lb ly V la lx U rng =
      (do let r ← proveCore sch ty p q xlen ylen R S gamma T lb ly V la lx U (); pure (r.1, rng)) := by
    simp only [proveCore, bind_assoc, pure_bind]
  rw [this, bind_ok_iff]
  constructor
  · rintro ⟨⟨pf', u⟩, h, h'⟩
    simp only [pure_eq_ok, Except.ok.injEq, Prod.mk.injEq] at h'
    obtain ⟨rfl, rfl⟩ := h'
    exact ⟨rfl, h⟩
  · rintro ⟨rfl, h⟩
    exact ⟨_, h, rfl⟩

theorem proveCore_rand {sch : Nat → Scheduler} {ty : EquType} {p q xlen ylen : Nat} {R S gamma T : Matrix F}
    {lb ly : Res (List (Com G2))} {V : Res (Matrix (Com G2))}
    {la lx : Res (List (Com G1))} {U : Res (Matrix (Com G1))} {rng rng' : ρ} {pf : EquProof F G1 G2}
    (h : proveCore sch ty p q xlen ylen R S gamma T lb ly V la lx U rng = .ok (pf, rng')) :
    pf.equ_type = ty ∧ pf.rand = T ∧ pf.pi.length = p ∧ pf.theta.length = q := by
  simp only [proveCore, bind_ok_iff, assertEq_ok_iff, exists_const, pure_eq_ok, Except.ok.injEq, Prod.mk.injEq] at h
  obtain ⟨-, -, R0, -, -, -, γ0, -, -, S0, -, -, Rt, -, St, -, lb', -, xb, -, xs, -,
    ly', -, xy, -, w1, -, w2, -, Tt, -, nTt, -, ps, -, v', -, pc, -, s1, -, s2, -, pi, -, hpil,
    la', -, ya, -, γt, -, ys, -, lx', -, yx, -, u', -, pc1, -, s3, -, s4, -, th, -, hthl, rfl, -⟩ := h
  exact ⟨rfl, rfl, hpil, hthl⟩

end

variable {ρ : Type} [Rng ρ F G1 G2] {sch : Nat → Scheduler} {crs : CRS G1 G2 GT} {rng : ρ} {m n : Nat}
  {xc : Commit F G1} {yc : Commit F G2}

/-! ### Closed forms -/

theorem PPE.prove_closed {self : PPE F G1 G2 GT} (hm : 0 < m) (hn : 0 < n) {a : Fin n → G1} {b : Fin m → G2}
    {γ : Fin m → Fin n → F} (ha : self.a_consts = List.ofFn a) (hb : self.b_consts = List.ofFn b)
    (hγ : self.gamma = matOf γ) (x : Fin m → G1) (y : Fin n → G2) {R : Fin m → Fin 2 → F} {S : Fin n → Fin 2 → F}
    (hR : xc.rand = matOf R) (hS : yc.rand = matOf S) {u0 u1 : Com G1} {v0 v1 : Com G2}
    (hu : crs.u = [u0, u1]) (hv : crs.v = [v0, v1]) {T : Fin 2 → Fin 2 → F} {rng' : ρ}
    (hT : [(d1 F G1 G2 rng).1, (d1 F G1 G2 (d1 F G1 G2 rng).2).1,
           (d1 F G1 G2 (d1 F G1 G2 (d1 F G1 G2 rng).2).2).1,
           (d1 F G1 G2 (d1 F G1 G2 (d1 F G1 G2 (d1 F G1 G2 rng).2).2).2).1] = [T 0 0, T 0 1, T 1 0, T 1 1])
    (hrng : (d1 F G1 G2 (d1 F G1 G2 (d1 F G1 G2 (d1 F G1 G2 rng).2).2).2).2 = rng') :
    self.prove sch (List.ofFn x) (List.ofFn y) xc yc crs rng =
      .ok (⟨List.ofFn (piVal (fun i => i2 (F := F) (b i)) (fun j => i2 (F := F) (y j)) γ R S T ![v0, v1]),
        List.ofFn (thetaVal (fun j => i1 (F := F) (a j)) (fun i => i1 (F := F) (x i)) γ S T ![u0, u1]),
        .PairingProduct, matOf T⟩, rng') := by
  simp only [List.cons.injEq, and_true] at hT
  obtain ⟨h1, h2, h3, h4⟩ := hT
  have hTm : matOf T = [[T 0 0, T 0 1], [T 1 0, T 1 1]] := by simp [matOf, List.ofFn_succ]
  rw [PPE.prove_eq, hR, hS, hγ, ha, hb, hrng, h1, h2, h3, h4, ← hTm, hu, hv, ofFn2 u0, ofFn2 v0,
    batchLinearMap1_ofFn (F := F), batchLinearMap1_ofFn (F := F), batchLinearMap2_ofFn (F := F),
    batchLinearMap2_ofFn (F := F), List.length_ofFn, List.length_ofFn,
    proveCore_matOf sch .PairingProduct hm hn (by decide) (by decide)]

theorem MSMEG1.prove_closed {self : MSMEG1 F G1} (hm : 0 < m) (hn : 0 < n) {a : Fin n → G1} {b : Fin m → F}
    {γ : Fin m → Fin n → F} (ha : self.a_consts = List.ofFn a) (hb : self.b_consts = List.ofFn b)
    (hγ : self.gamma = matOf γ) (x : Fin m → G1) (y : Fin n → F) {R : Fin m → Fin 2 → F} {S : Fin n → Fin 1 → F}
    (hR : xc.rand = matOf R) (hS : yc.rand = matOf S) {u0 u1 : Com G1} {v0 v1 : Com G2} {v' : List (Com G2)}
    (hu : crs.u = [u0, u1]) (hv : crs.v = v0 :: v1 :: v') {T : Fin 1 → Fin 2 → F} {rng' : ρ}
    (hT : [(d1 F G1 G2 rng).1, (d1 F G1 G2 (d1 F G1 G2 rng).2).1] = [T 0 0, T 0 1])
    (hrng : (d1 F G1 G2 (d1 F G1 G2 rng).2).2 = rng') :
    self.prove sch (List.ofFn x) (List.ofFn y) xc yc crs rng =
      .ok (⟨List.ofFn (piVal (fun i => b i • (v1 + Com2.linearMap crs.g2_gen))
          (fun j => y j • (v1 + Com2.linearMap crs.g2_gen)) γ R S T ![v0]),
        List.ofFn (thetaVal (fun j => i1 (F := F) (a j)) (fun i => i1 (F := F) (x i)) γ S T ![u0, u1]),
        .MultiScalarG1, matOf T⟩, rng') := by
  simp only [List.cons.injEq, and_true] at hT
  obtain ⟨h1, h2⟩ := hT
  have hTm : matOf T = [[T 0 0, T 0 1]] := by simp [matOf, List.ofFn_succ]
  have hv1 : crs.v[1]? = some v1 := by rw [hv]; rfl
  have hv0 : idx crs.v 0 = .ok v0 := by rw [hv]; rfl
  rw [MSMEG1.prove_eq, hR, hS, hγ, ha, hb, hrng, h1, h2, ← hTm, hu, ofFn2 u0, hv0, ok_bind, pure_eq_ok, col1 v0,
    batchLinearMap1_ofFn (F := F), batchLinearMap1_ofFn (F := F), batchScalarLinearMap2_ofFn _ hv1,
    batchScalarLinearMap2_ofFn _ hv1, List.length_ofFn, List.length_ofFn,
    proveCore_matOf sch .MultiScalarG1 hm hn (by decide) (by decide)]

theorem MSMEG2.prove_closed {self : MSMEG2 F G2} (hm : 0 < m) (hn : 0 < n) {a : Fin n → F} {b : Fin m → G2}
    {γ : Fin m → Fin n → F} (ha : self.a_consts = List.ofFn a) (hb : self.b_consts = List.ofFn b)
    (hγ : self.gamma = matOf γ) (x : Fin m → F) (y : Fin n → G2) {R : Fin m → Fin 1 → F} {S : Fin n → Fin 2 → F}
    (hR : xc.rand = matOf R) (hS : yc.rand = matOf S) {u0 u1 : Com G1} {u' : List (Com G1)} {v0 v1 : Com G2}
    (hu : crs.u = u0 :: u1 :: u') (hv : crs.v = [v0, v1]) {T : Fin 2 → Fin 1 → F} {rng' : ρ}
    (hT : [(d1 F G1 G2 rng).1, (d1 F G1 G2 (d1 F G1 G2 rng).2).1] = [T 0 0, T 1 0])
    (hrng : (d1 F G1 G2 (d1 F G1 G2 rng).2).2 = rng') :
    self.prove sch (List.ofFn x) (List.ofFn y) xc yc crs rng =
      .ok (⟨List.ofFn (piVal (fun i => i2 (F := F) (b i)) (fun j => i2 (F := F) (y j)) γ R S T ![v0, v1]),
        List.ofFn (thetaVal (fun j => a j • (u1 + Com1.linearMap crs.g1_gen))
          (fun i => x i • (u1 + Com1.linearMap crs.g1_gen)) γ S T ![u0]),
        .MultiScalarG2, matOf T⟩, rng') := by
  simp only [List.cons.injEq, and_true] at hT
  obtain ⟨h1, h2⟩ := hT
  have hTm : matOf T = [[T 0 0], [T 1 0]] := by simp [matOf, List.ofFn_succ]
  have hu1 : crs.u[1]? = some u1 := by rw [hu]; rfl
  have hu0 : idx crs.u 0 = .ok u0 := by rw [hu]; rfl
  rw [MSMEG2.prove_eq, hR, hS, hγ, ha, hb, hrng, h1, h2, ← hTm, hv, ofFn2 v0, hu0, ok_bind, pure_eq_ok, col1 u0,
    batchLinearMap2_ofFn (F := F), batchLinearMap2_ofFn (F := F), batchScalarLinearMap1_ofFn _ hu1,
    batchScalarLinearMap1_ofFn _ hu1, List.length_ofFn, List.length_ofFn,
    proveCore_matOf sch .MultiScalarG2 hm hn (by decide) (by decide)]

theorem QuadEqu.prove_closed {self : QuadEqu F} (hm : 0 < m) (hn : 0 < n) {a : Fin n → F} {b : Fin m → F}
    {γ : Fin m → Fin n → F} (ha : self.a_consts = List.ofFn a) (hb : self.b_consts = List.ofFn b)
    (hγ : self.gamma = matOf γ) (x : Fin m → F) (y : Fin n → F) {R : Fin m → Fin 1 → F} {S : Fin n → Fin 1 → F}
    (hR : xc.rand = matOf R) (hS : yc.rand = matOf S) {u0 u1 : Com G1} {u' : List (Com G1)} {v0 v1 : Com G2}
    {v' : List (Com G2)}
    (hu : crs.u = u0 :: u1 :: u') (hv : crs.v = v0 :: v1 :: v') {T : Fin 1 → Fin 1 → F} {rng' : ρ}
    (hT : [(d1 F G1 G2 rng).1] = [T 0 0])
    (hrng : (d1 F G1 G2 rng).2 = rng') :
    self.prove sch (List.ofFn x) (List.ofFn y) xc yc crs rng =
      .ok (⟨List.ofFn (piVal (fun i => b i • (v1 + Com2.linearMap crs.g2_gen))
          (fun j => y j • (v1 + Com2.linearMap crs.g2_gen)) γ R S T ![v0]),
        List.ofFn (thetaVal (fun j => a j • (u1 + Com1.linearMap crs.g1_gen))
          (fun i => x i • (u1 + Com1.linearMap crs.g1_gen)) γ S T ![u0]),
        .Quadratic, matOf T⟩, rng') := by
  simp only [List.cons.injEq, and_true] at hT
  have hTm : matOf T = [[T 0 0]] := by simp [matOf, List.ofFn_succ]
  have hu1 : crs.u[1]? = some u1 := by rw [hu]; rfl
  have hu0 : idx crs.u 0 = .ok u0 := by rw [hu]; rfl
  have hv1 : crs.v[1]? = some v1 := by rw [hv]; rfl
  have hv0 : idx crs.v 0 = .ok v0 := by rw [hv]; rfl
  rw [QuadEqu.prove_eq, hR, hS, hγ, ha, hb, hrng, hT, ← hTm, hu0, hv0, ok_bind, ok_bind, pure_eq_ok, pure_eq_ok,
    col1 u0, col1 v0, batchScalarLinearMap2_ofFn _ hv1,
    batchScalarLinearMap2_ofFn _ hv1, batchScalarLinearMap1_ofFn _ hu1,
    batchScalarLinearMap1_ofFn _ hu1, List.length_ofFn, List.length_ofFn,
    proveCore_matOf sch .Quadratic hm hn (by decide) (by decide)]

/-! ### Exact domains -/

theorem length_batchLinearMap1 (x : List G1) : (Com1.batchLinearMap x).length = x.length := by
  simp [Com1.batchLinearMap]
theorem length_batchLinearMap2 (x : List G2) : (Com2.batchLinearMap x).length = x.length := by
  simp [Com2.batchLinearMap]

theorem batchScalarLinearMap1_len {x : List F} {l : List (Com G1)} (h : Com1.batchScalarLinearMap x crs = .ok l)
    (hl : 0 < l.length) : x.length = l.length ∧ 2 ≤ crs.u.length := by
  rcases batchScalarLinearMap1_iff.mp h with ⟨-, rfl⟩ | ⟨w, hw, rfl⟩
  · simp at hl
  · refine ⟨by simp, (List.getElem?_eq_some_iff.mp hw).1⟩

theorem batchScalarLinearMap2_len {x : List F} {l : List (Com G2)} (h : Com2.batchScalarLinearMap x crs = .ok l)
    (hl : 0 < l.length) : x.length = l.length ∧ 2 ≤ crs.v.length := by
  rcases batchScalarLinearMap2_iff.mp h with ⟨-, rfl⟩ | ⟨w, hw, rfl⟩
  · simp at hl
  · refine ⟨by simp, (List.getElem?_eq_some_iff.mp hw).1⟩

theorem PPE.prove_dom {self : PPE F G1 G2 GT} {x : List G1} {y : List G2} :
    (self.prove sch x y xc yc crs rng).Ok ↔ x ≠ [] ∧ y ≠ [] ∧ Rect x.length 2 xc.rand ∧ Rect y.length 2 yc.rand ∧
      self.Dims x.length y.length ∧ crs.u.length = 2 ∧ crs.v.length = 2 := by
  constructor
  · rintro ⟨r, h⟩
    rw [PPE.prove_eq, matOf22] at h
    obtain ⟨h1, h2, h3, h4, h5, ⟨_, hb, h6⟩, -, ⟨_, ha, h8⟩, -, ⟨_, hv, h10⟩, ⟨_, hu, h11⟩⟩ :=
      proveCore_dims (by decide) (by decide) h
    cases hb; cases ha; cases hv; cases hu
    rw [length_batchLinearMap2] at h6
    rw [length_batchLinearMap1] at h8
    rw [length_vecToColVec] at h10 h11
    exact ⟨List.length_pos_iff.mp h1, List.length_pos_iff.mp h2, h3, h4, ⟨h8, h6, h5.1, h5.2⟩, h11, h10⟩
  · rintro ⟨hx, hy, hR, hS, hd, hu, hv⟩
    have hm := List.length_pos_iff.mpr hx
    have hn := List.length_pos_iff.mpr hy
    obtain ⟨m, hxm⟩ : ∃ m, x.length = m := ⟨_, rfl⟩
    obtain ⟨n, hyn⟩ : ∃ n, y.length = n := ⟨_, rfl⟩
    rw [hxm] at hm hd hR
    rw [hyn] at hn hd hS
    obtain ⟨a, ha⟩ := exists_ofFn self.a_consts hd.a
    obtain ⟨b, hb⟩ := exists_ofFn self.b_consts hd.b
    obtain ⟨γ, hγ⟩ := rect_iff.mp (⟨hd.rows, hd.cols⟩ : Rect _ _ self.gamma)
    obtain ⟨x', rfl⟩ := exists_ofFn x hxm
    obtain ⟨y', rfl⟩ := exists_ofFn y hyn
    obtain ⟨R, hR⟩ := rect_iff.mp hR
    obtain ⟨S, hS⟩ := rect_iff.mp hS
    obtain ⟨u0, u1, hu⟩ := List.length_eq_two.mp hu
    obtain ⟨v0, v1, hv⟩ := List.length_eq_two.mp hv
    exact ⟨_, PPE.prove_closed hm hn ha hb hγ x' y' hR hS hu hv (T := ![![_, _], ![_, _]]) rfl rfl⟩

theorem MSMEG1.prove_dom {self : MSMEG1 F G1} {x : List G1} {y : List F} :
    (self.prove sch x y xc yc crs rng).Ok ↔ x ≠ [] ∧ y ≠ [] ∧ Rect x.length 2 xc.rand ∧ Rect y.length 1 yc.rand ∧
      self.Dims x.length y.length ∧ crs.u.length = 2 ∧ 2 ≤ crs.v.length := by
  constructor
  · rintro ⟨r, h⟩
    rw [MSMEG1.prove_eq, matOf12] at h
    obtain ⟨h1, h2, h3, h4, h5, ⟨_, hb, h6⟩, -, ⟨_, ha, h8⟩, -, -, ⟨_, hu, h11⟩⟩ :=
      proveCore_dims (by decide) (by decide) h
    cases ha; cases hu
    rw [length_batchLinearMap1] at h8
    rw [length_vecToColVec] at h11
    obtain ⟨h6', h10⟩ := batchScalarLinearMap2_len hb (by omega)
    exact ⟨List.length_pos_iff.mp h1, List.length_pos_iff.mp h2, h3, h4, ⟨h8, h6'.trans h6, h5.1, h5.2⟩, h11, h10⟩
  · rintro ⟨hx, hy, hR, hS, hd, hu, hv⟩
    have hm := List.length_pos_iff.mpr hx
    have hn := List.length_pos_iff.mpr hy
    obtain ⟨m, hxm⟩ : ∃ m, x.length = m := ⟨_, rfl⟩
    obtain ⟨n, hyn⟩ : ∃ n, y.length = n := ⟨_, rfl⟩
    rw [hxm] at hm hd hR
    rw [hyn] at hn hd hS
    obtain ⟨a, ha⟩ := exists_ofFn self.a_consts hd.a
    obtain ⟨b, hb⟩ := exists_ofFn self.b_consts hd.b
    obtain ⟨γ, hγ⟩ := rect_iff.mp (⟨hd.rows, hd.cols⟩ : Rect _ _ self.gamma)
    obtain ⟨x', rfl⟩ := exists_ofFn x hxm
    obtain ⟨y', rfl⟩ := exists_ofFn y hyn
    obtain ⟨R, hR⟩ := rect_iff.mp hR
    obtain ⟨S, hS⟩ := rect_iff.mp hS
    obtain ⟨u0, u1, hu⟩ := List.length_eq_two.mp hu
    obtain ⟨v0, v1, v', hv⟩ := cons2_of_length hv
    exact ⟨_, MSMEG1.prove_closed hm hn ha hb hγ x' y' hR hS hu hv (T := ![![_, _]]) rfl rfl⟩

theorem MSMEG2.prove_dom {self : MSMEG2 F G2} {x : List F} {y : List G2} :
    (self.prove sch x y xc yc crs rng).Ok ↔ x ≠ [] ∧ y ≠ [] ∧ Rect x.length 1 xc.rand ∧ Rect y.length 2 yc.rand ∧
      self.Dims x.length y.length ∧ 2 ≤ crs.u.length ∧ crs.v.length = 2 := by
  constructor
  · rintro ⟨r, h⟩
    rw [MSMEG2.prove_eq, matOf21] at h
    obtain ⟨h1, h2, h3, h4, h5, ⟨_, hb, h6⟩, -, ⟨_, ha, h8⟩, -, ⟨_, hv, h10⟩, -⟩ :=
      proveCore_dims (by decide) (by decide) h
    cases hb; cases hv
    rw [length_batchLinearMap2] at h6
    rw [length_vecToColVec] at h10
    obtain ⟨h8', h11⟩ := batchScalarLinearMap1_len ha (by omega)
    exact ⟨List.length_pos_iff.mp h1, List.length_pos_iff.mp h2, h3, h4, ⟨h8'.trans h8, h6, h5.1, h5.2⟩, h11, h10⟩
  · rintro ⟨hx, hy, hR, hS, hd, hu, hv⟩
    have hm := List.length_pos_iff.mpr hx
    have hn := List.length_pos_iff.mpr hy
    obtain ⟨m, hxm⟩ : ∃ m, x.length = m := ⟨_, rfl⟩
    obtain ⟨n, hyn⟩ : ∃ n, y.length = n := ⟨_, rfl⟩
    rw [hxm] at hm hd hR
    rw [hyn] at hn hd hS
    obtain ⟨a, ha⟩ := exists_ofFn self.a_consts hd.a
    obtain ⟨b, hb⟩ := exists_ofFn self.b_consts hd.b
    obtain ⟨γ, hγ⟩ := rect_iff.mp (⟨hd.rows, hd.cols⟩ : Rect _ _ self.gamma)
    obtain ⟨x', rfl⟩ := exists_ofFn x hxm
    obtain ⟨y', rfl⟩ := exists_ofFn y hyn
    obtain ⟨R, hR⟩ := rect_iff.mp hR
    obtain ⟨S, hS⟩ := rect_iff.mp hS
    obtain ⟨u0, u1, u', hu⟩ := cons2_of_length hu
    obtain ⟨v0, v1, hv⟩ := List.length_eq_two.mp hv
    exact ⟨_, MSMEG2.prove_closed hm hn ha hb hγ x' y' hR hS hu hv (T := ![![_], ![_]]) rfl rfl⟩

theorem QuadEqu.prove_dom {self : QuadEqu F} {x y : List F} :
    (self.prove sch x y xc yc crs rng).Ok ↔ x ≠ [] ∧ y ≠ [] ∧ Rect x.length 1 xc.rand ∧ Rect y.length 1 yc.rand ∧
      self.Dims x.length y.length ∧ 2 ≤ crs.u.length ∧ 2 ≤ crs.v.length := by
  constructor
  · rintro ⟨r, h⟩
    rw [QuadEqu.prove_eq, matOf11] at h
    obtain ⟨h1, h2, h3, h4, h5, ⟨_, hb, h6⟩, -, ⟨_, ha, h8⟩, -, -, -⟩ :=
      proveCore_dims (by decide) (by decide) h
    obtain ⟨h8', h11⟩ := batchScalarLinearMap1_len ha (by omega)
    obtain ⟨h6', h10⟩ := batchScalarLinearMap2_len hb (by omega)
    exact ⟨List.length_pos_iff.mp h1, List.length_pos_iff.mp h2, h3, h4, ⟨h8'.trans h8, h6'.trans h6, h5.1, h5.2⟩,
      h11, h10⟩
  · rintro ⟨hx, hy, hR, hS, hd, hu, hv⟩
    have hm := List.length_pos_iff.mpr hx
    have hn := List.length_pos_iff.mpr hy
    obtain ⟨m, hxm⟩ : ∃ m, x.length = m := ⟨_, rfl⟩
    obtain ⟨n, hyn⟩ : ∃ n, y.length = n := ⟨_, rfl⟩
    rw [hxm] at hm hd hR
    rw [hyn] at hn hd hS
    obtain ⟨a, ha⟩ := exists_ofFn self.a_consts hd.a
    obtain ⟨b, hb⟩ := exists_ofFn self.b_consts hd.b
    obtain ⟨γ, hγ⟩ := rect_iff.mp (⟨hd.rows, hd.cols⟩ : Rect _ _ self.gamma)
    obtain ⟨x', rfl⟩ := exists_ofFn x hxm
    obtain ⟨y', rfl⟩ := exists_ofFn y hyn
    obtain ⟨R, hR⟩ := rect_iff.mp hR
    obtain ⟨S, hS⟩ := rect_iff.mp hS
    obtain ⟨u0, u1, u', hu⟩ := cons2_of_length hu
    obtain ⟨v0, v1, v', hv⟩ := cons2_of_length hv
    exact ⟨_, QuadEqu.prove_closed hm hn ha hb hγ x' y' hR hS hu hv (T := ![![_]]) rfl rfl⟩

end GS
