import Verif.Lemmas.Refresh
import Verif.Props.Accepted

/-!
# C66, C67: changing published proofs without a witness

C66: anyone can re-randomize an accepted proof (`refresh`, using public data and fresh scalars only). The result is
accepted, and it is distributed like a fresh proof: of the same witness on every CRS, of any witness on a hiding CRS.
C67: proofs of two equations about the same commitments give proofs of all linear combinations of the equations.
-/

set_option linter.unusedSectionVars false

namespace GS
variable {F G1 G2 GT : Type} [Field F] [AddCommGroup G1] [Module F G1] [AddCommGroup G2] [Module F G2]
  [AddCommGroup GT] [Module F GT] {e : G1 →ₗ[F] G2 →ₗ[F] GT} {crs : CRS G1 G2 GT}

theorem length_addL {A : Type} [Add A] (l l' : List A) (h : l'.length = l.length) : (addL l l').length = l.length := by
  simp [addL, h]

theorem ofFn_split {α : Type} {l : List α} {a : α} {l' : List α} (h : l = a :: l') : l = List.ofFn ![a] ++ l' := by
  rw [h]; simp [List.ofFn_succ]

theorem emb_lin {G : Type} [AddCommGroup G] [Module F G] (s s' : F) (x y : G) :
    emb (s • x + s' • y) = s • emb x + s' • emb y := by simp [emb, Com.ext_iff]

theorem smul_lin {M : Type} [AddCommGroup M] [Module F M] (s s' x y : F) (w : M) :
    (s • x + s' • y) • w = s • x • w + s' • y • w := by simp only [smul_eq_mul, add_smul, mul_smul]

theorem ppe_lin (s s' : F) (x y : GT) :
    (⟨0, 0, 0, s • x + s' • y⟩ : ComT GT) = s • (⟨0, 0, 0, x⟩ : ComT GT) + s' • (⟨0, 0, 0, y⟩ : ComT GT) := by
  ext <;> simp

theorem tensor_lin_left (s s' : F) (x y : Com G1) (w : Com G2) :
    tensor e (s • x + s' • y) w = s • tensor e x w + s' • tensor e y w := by
  simp only [tensor_eq, map_add, map_smul, LinearMap.add_apply, LinearMap.smul_apply]

theorem tensor_lin_right (s s' : F) (x y : Com G2) (w : Com G1) :
    tensor e w (s • x + s' • y) = s • tensor e w x + s' • tensor e w y := by
  simp only [tensor_eq, map_add, map_smul]

theorem gammaDom_congr {m n : Nat} {γ γ' : Fin m → Fin n → F} (h : GammaDom m n (matOf γ)) : GammaDom m n (matOf γ') := by
  rcases h with ⟨rfl, h⟩ | ⟨hm, hn, -⟩
  · exact Or.inl ⟨rfl, Or.inr (Or.inl (by simp [matOf]))⟩
  · exact gammaDom_matOf hm hn γ'

theorem ofFn_two {α : Type} (f : Fin 2 → α) : List.ofFn f = [f 0, f 1] := by simp [List.ofFn_succ]

theorem ofFn_one {α : Type} (f : Fin 1 → α) : List.ofFn f = [f 0] := by simp [List.ofFn_succ]

section accept
variable [DecidableEq GT] {sch : Scheduler} {cp : CProof F G1 G2}

theorem PPE.accept_iff {equ : PPE F G1 G2 GT} : equ.verify e sch cp crs = .ok true ↔
    ∃ pf, cp.equ_proofs = [pf] ∧ pf.equ_type = .PairingProduct ∧
      equ.a_consts.length = cp.ycoms.coms.length ∧ equ.b_consts.length = cp.xcoms.coms.length ∧
      GammaDom cp.xcoms.coms.length cp.ycoms.coms.length equ.gamma ∧
      ((pf.pi.length = crs.u.length) ∧ pf.theta.length = crs.v.length) ∧
      equ.Equation e crs cp.xcoms.coms cp.ycoms.coms pf := by
  constructor
  · intro h
    obtain ⟨pf, h1, h2, h3, h4, h5, h6⟩ := (C37_ppe e sch cp crs equ).mp ⟨_, h⟩
    obtain ⟨pf', h1', h7⟩ := PPE.verify_equation h
    rw [h1] at h1'; cases h1'
    refine ⟨pf, h1, h2, h3, h4, h5, ?_, h7.mp rfl⟩
    tauto
  · rintro ⟨pf, h1, h2, h3, h4, h5, h6, h7⟩
    obtain ⟨r, h⟩ := (C37_ppe e sch cp crs equ).mpr ⟨pf, h1, h2, h3, h4, h5, by tauto⟩
    obtain ⟨pf', h1', h8⟩ := PPE.verify_equation h
    rw [h1] at h1'; cases h1'
    rw [h, h8.mpr h7]

theorem MSMEG1.accept_iff {equ : MSMEG1 F G1} : equ.verify e sch cp crs = .ok true ↔
    ∃ pf, cp.equ_proofs = [pf] ∧ pf.equ_type = .MultiScalarG1 ∧
      equ.a_consts.length = cp.ycoms.coms.length ∧ equ.b_consts.length = cp.xcoms.coms.length ∧
      GammaDom cp.xcoms.coms.length cp.ycoms.coms.length equ.gamma ∧
      ((pf.pi.length = crs.u.length) ∧ pf.theta ≠ [] ∧ 2 ≤ crs.v.length) ∧
      equ.Equation e crs cp.xcoms.coms cp.ycoms.coms pf := by
  constructor
  · intro h
    obtain ⟨pf, h1, h2, h3, h4, h5, h6⟩ := (C37_msmeg1 e sch cp crs equ).mp ⟨_, h⟩
    obtain ⟨pf', h1', h7⟩ := MSMEG1.verify_equation h
    rw [h1] at h1'; cases h1'
    refine ⟨pf, h1, h2, h3, h4, h5, ?_, h7.mp rfl⟩
    tauto
  · rintro ⟨pf, h1, h2, h3, h4, h5, h6, h7⟩
    obtain ⟨r, h⟩ := (C37_msmeg1 e sch cp crs equ).mpr ⟨pf, h1, h2, h3, h4, h5, by tauto⟩
    obtain ⟨pf', h1', h8⟩ := MSMEG1.verify_equation h
    rw [h1] at h1'; cases h1'
    rw [h, h8.mpr h7]

theorem MSMEG2.accept_iff {equ : MSMEG2 F G2} : equ.verify e sch cp crs = .ok true ↔
    ∃ pf, cp.equ_proofs = [pf] ∧ pf.equ_type = .MultiScalarG2 ∧
      equ.a_consts.length = cp.ycoms.coms.length ∧ equ.b_consts.length = cp.xcoms.coms.length ∧
      GammaDom cp.xcoms.coms.length cp.ycoms.coms.length equ.gamma ∧
      ((pf.pi ≠ [] ∧ 2 ≤ crs.u.length) ∧ pf.theta.length = crs.v.length) ∧
      equ.Equation e crs cp.xcoms.coms cp.ycoms.coms pf := by
  constructor
  · intro h
    obtain ⟨pf, h1, h2, h3, h4, h5, h6⟩ := (C37_msmeg2 e sch cp crs equ).mp ⟨_, h⟩
    obtain ⟨pf', h1', h7⟩ := MSMEG2.verify_equation h
    rw [h1] at h1'; cases h1'
    refine ⟨pf, h1, h2, h3, h4, h5, ?_, h7.mp rfl⟩
    tauto
  · rintro ⟨pf, h1, h2, h3, h4, h5, h6, h7⟩
    obtain ⟨r, h⟩ := (C37_msmeg2 e sch cp crs equ).mpr ⟨pf, h1, h2, h3, h4, h5, by tauto⟩
    obtain ⟨pf', h1', h8⟩ := MSMEG2.verify_equation h
    rw [h1] at h1'; cases h1'
    rw [h, h8.mpr h7]

theorem QuadEqu.accept_iff {equ : QuadEqu F} : equ.verify e sch cp crs = .ok true ↔
    ∃ pf, cp.equ_proofs = [pf] ∧ pf.equ_type = .Quadratic ∧
      equ.a_consts.length = cp.ycoms.coms.length ∧ equ.b_consts.length = cp.xcoms.coms.length ∧
      GammaDom cp.xcoms.coms.length cp.ycoms.coms.length equ.gamma ∧
      ((pf.pi ≠ [] ∧ 2 ≤ crs.u.length) ∧ pf.theta ≠ [] ∧ 2 ≤ crs.v.length) ∧
      equ.Equation e crs cp.xcoms.coms cp.ycoms.coms pf := by
  constructor
  · intro h
    obtain ⟨pf, h1, h2, h3, h4, h5, h6⟩ := (C37_quad e sch cp crs equ).mp ⟨_, h⟩
    obtain ⟨pf', h1', h7⟩ := QuadEqu.verify_equation h
    rw [h1] at h1'; cases h1'
    refine ⟨pf, h1, h2, h3, h4, h5, ?_, h7.mp rfl⟩
    tauto
  · rintro ⟨pf, h1, h2, h3, h4, h5, h6, h7⟩
    obtain ⟨r, h⟩ := (C37_quad e sch cp crs equ).mpr ⟨pf, h1, h2, h3, h4, h5, by tauto⟩
    obtain ⟨pf', h1', h8⟩ := QuadEqu.verify_equation h
    rw [h1] at h1'; cases h1'
    rw [h, h8.mpr h7]

/-- C66, PPE: a refreshed proof is accepted. -/
theorem C66_ppe_accept (equ : PPE F G1 G2 GT) {pf : EquProof F G1 G2} (hpf : cp.equ_proofs = [pf])
    (hacc : equ.verify e sch cp crs = .ok true) (hd : equ.Dims cp.xcoms.coms.length cp.ycoms.coms.length) {R S T : Matrix F}
    (hR : Rect cp.xcoms.coms.length crs.u.length R) (hS : Rect cp.ycoms.coms.length crs.v.length S)
    (hT : Rect crs.v.length crs.u.length T) (sch' : Scheduler) :
    equ.verify e sch' (equ.refresh crs R S T cp.xcoms.coms cp.ycoms.coms pf) crs = .ok true := by
  obtain ⟨pf', h1, h2, h3, h4, h5, h6, h7⟩ := PPE.accept_iff.mp hacc
  rw [hpf] at h1; cases h1
  obtain ⟨m, hm⟩ : ∃ m, cp.xcoms.coms.length = m := ⟨_, rfl⟩
  obtain ⟨n, hn⟩ : ∃ n, cp.ycoms.coms.length = n := ⟨_, rfl⟩
  rw [hm, hn] at hd h5
  rw [hm] at hR h4
  rw [hn] at hS h3
  obtain ⟨c, hc⟩ := exists_ofFn cp.xcoms.coms hm
  obtain ⟨d, hd'⟩ := exists_ofFn cp.ycoms.coms hn
  obtain ⟨a, ha⟩ := exists_ofFn equ.a_consts hd.a
  obtain ⟨b, hb⟩ := exists_ofFn equ.b_consts hd.b
  obtain ⟨γ, hγ⟩ := rect_iff.mp (⟨hd.rows, hd.cols⟩ : Rect _ _ equ.gamma)
  obtain ⟨p, hp⟩ : ∃ p, crs.u.length = p := ⟨_, rfl⟩
  rw [hp] at hR hT h6
  obtain ⟨u, hu⟩ := exists_ofFn crs.u hp
  obtain ⟨π, hπ⟩ := exists_ofFn pf.pi h6.1
  obtain ⟨q, hq⟩ : ∃ q, crs.v.length = q := ⟨_, rfl⟩
  rw [hq] at hS hT h6
  obtain ⟨v, hv⟩ := exists_ofFn crs.v hq
  obtain ⟨θ, hθ⟩ := exists_ofFn pf.theta h6.2
  obtain ⟨R, rfl⟩ := rect_iff.mp hR
  obtain ⟨S, rfl⟩ := rect_iff.mp hS
  obtain ⟨T, rfl⟩ := rect_iff.mp hT
  rw [PPE.Equation] at h7
  have hr : equ.refresh crs (matOf R) (matOf S) (matOf T) cp.xcoms.coms cp.ycoms.coms pf =
      (let w := refreshFn u v (fun j => emb (a j)) (fun i => emb (b i)) γ (c, d, π, θ) (R, S, T)
      ⟨⟨List.ofFn w.1, []⟩, ⟨List.ofFn w.2.1, []⟩, [⟨List.ofFn w.2.2.1, List.ofFn w.2.2.2, pf.equ_type, []⟩]⟩) := by
    have := refresh_ofFn u v (fun j => emb (a j)) (fun i => emb (b i)) γ R S T c d π [] θ [] pf.equ_type pf.rand
    rw [← this]
    obtain ⟨pi, theta, ty, rand⟩ := pf
    simp only at hπ hθ
    unfold PPE.refresh
    rw [ha, hb, hγ, List.map_ofFn, List.map_ofFn, hc, hd', hu, hv, hπ, hθ]
    simp [Function.comp_def]
  rw [PPE.accept_iff, hr]
  refine ⟨_, rfl, h2, by simpa using h3, by simpa using h4, by simpa using h5, ⟨by simp [hp], by simp [hq]⟩, ?_⟩
  rw [ha, hb, hγ, hc, hd', List.map_ofFn, List.map_ofFn, hu, hπ, hv, hθ] at h7
  have := gsEquation_refresh h7 (R, S, T)
  rw [PPE.Equation, ha, hb, hγ, List.map_ofFn, List.map_ofFn, hu, hv]
  exact this

/-- C66, MSMEG1: a refreshed proof is accepted. -/
theorem C66_msmeg1_accept (equ : MSMEG1 F G1) {pf : EquProof F G1 G2} (hpf : cp.equ_proofs = [pf])
    (hacc : equ.verify e sch cp crs = .ok true) (hd : equ.Dims cp.xcoms.coms.length cp.ycoms.coms.length) {R S T : Matrix F}
    (hR : Rect cp.xcoms.coms.length crs.u.length R) (hS : Rect cp.ycoms.coms.length 1 S)
    (hT : Rect 1 crs.u.length T) (sch' : Scheduler) :
    equ.verify e sch' (equ.refresh crs R S T cp.xcoms.coms cp.ycoms.coms pf) crs = .ok true := by
  obtain ⟨pf', h1, h2, h3, h4, h5, h6, h7⟩ := MSMEG1.accept_iff.mp hacc
  rw [hpf] at h1; cases h1
  obtain ⟨m, hm⟩ : ∃ m, cp.xcoms.coms.length = m := ⟨_, rfl⟩
  obtain ⟨n, hn⟩ : ∃ n, cp.ycoms.coms.length = n := ⟨_, rfl⟩
  rw [hm, hn] at hd h5
  rw [hm] at hR h4
  rw [hn] at hS h3
  obtain ⟨c, hc⟩ := exists_ofFn cp.xcoms.coms hm
  obtain ⟨d, hd'⟩ := exists_ofFn cp.ycoms.coms hn
  obtain ⟨a, ha⟩ := exists_ofFn equ.a_consts hd.a
  obtain ⟨b, hb⟩ := exists_ofFn equ.b_consts hd.b
  obtain ⟨γ, hγ⟩ := rect_iff.mp (⟨hd.rows, hd.cols⟩ : Rect _ _ equ.gamma)
  obtain ⟨p, hp⟩ : ∃ p, crs.u.length = p := ⟨_, rfl⟩
  rw [hp] at hR hT h6
  obtain ⟨u, hu⟩ := exists_ofFn crs.u hp
  obtain ⟨π, hπ⟩ := exists_ofFn pf.pi h6.1
  obtain ⟨R, rfl⟩ := rect_iff.mp hR
  obtain ⟨S, rfl⟩ := rect_iff.mp hS
  obtain ⟨T, rfl⟩ := rect_iff.mp hT
  obtain ⟨v0, v1, v', t0, t', hv, hth, h7⟩ := h7
  have hr : equ.refresh crs (matOf R) (matOf S) (matOf T) cp.xcoms.coms cp.ycoms.coms pf =
      (let w := refreshFn u ![v0] (fun j => emb (a j)) (fun i => b i • (v1 + emb crs.g2_gen)) γ (c, d, π, ![t0]) (R, S, T)
      ⟨⟨List.ofFn w.1, []⟩, ⟨List.ofFn w.2.1, []⟩, [⟨List.ofFn w.2.2.1, List.ofFn w.2.2.2, pf.equ_type, []⟩]⟩) := by
    have := refresh_ofFn u ![v0] (fun j => emb (a j)) (fun i => b i • (v1 + emb crs.g2_gen)) γ R S T c d π [] ![t0] t' pf.equ_type pf.rand
    rw [← this]
    obtain ⟨pi, theta, ty, rand⟩ := pf
    simp only at hπ hth
    unfold MSMEG1.refresh
    rw [ha, hb, hγ, List.map_ofFn, List.map_ofFn, hc, hd', hu, hv, hπ, hth]
    simp [Function.comp_def]
  rw [MSMEG1.accept_iff, hr]
  refine ⟨_, rfl, h2, by simpa using h3, by simpa using h4, by simpa using h5, ⟨by simp [hp], by simp, h6.2.2⟩, ?_⟩
  rw [ha, hb, hγ, hc, hd', List.map_ofFn, List.map_ofFn, hu, hπ, ofFn1, ofFn1] at h7
  have := gsEquation_refresh h7 (R, S, T)
  refine ⟨v0, v1, v', _, [], hv, ofFn_one _, ?_⟩
  rw [ha, hb, hγ, List.map_ofFn, List.map_ofFn, hu]
  simp only [ofFn_one] at this
  exact this

/-- C66, MSMEG2: a refreshed proof is accepted. -/
theorem C66_msmeg2_accept (equ : MSMEG2 F G2) {pf : EquProof F G1 G2} (hpf : cp.equ_proofs = [pf])
    (hacc : equ.verify e sch cp crs = .ok true) (hd : equ.Dims cp.xcoms.coms.length cp.ycoms.coms.length) {R S T : Matrix F}
    (hR : Rect cp.xcoms.coms.length 1 R) (hS : Rect cp.ycoms.coms.length crs.v.length S)
    (hT : Rect crs.v.length 1 T) (sch' : Scheduler) :
    equ.verify e sch' (equ.refresh crs R S T cp.xcoms.coms cp.ycoms.coms pf) crs = .ok true := by
  obtain ⟨pf', h1, h2, h3, h4, h5, h6, h7⟩ := MSMEG2.accept_iff.mp hacc
  rw [hpf] at h1; cases h1
  obtain ⟨m, hm⟩ : ∃ m, cp.xcoms.coms.length = m := ⟨_, rfl⟩
  obtain ⟨n, hn⟩ : ∃ n, cp.ycoms.coms.length = n := ⟨_, rfl⟩
  rw [hm, hn] at hd h5
  rw [hm] at hR h4
  rw [hn] at hS h3
  obtain ⟨c, hc⟩ := exists_ofFn cp.xcoms.coms hm
  obtain ⟨d, hd'⟩ := exists_ofFn cp.ycoms.coms hn
  obtain ⟨a, ha⟩ := exists_ofFn equ.a_consts hd.a
  obtain ⟨b, hb⟩ := exists_ofFn equ.b_consts hd.b
  obtain ⟨γ, hγ⟩ := rect_iff.mp (⟨hd.rows, hd.cols⟩ : Rect _ _ equ.gamma)
  obtain ⟨q, hq⟩ : ∃ q, crs.v.length = q := ⟨_, rfl⟩
  rw [hq] at hS hT h6
  obtain ⟨v, hv⟩ := exists_ofFn crs.v hq
  obtain ⟨θ, hθ⟩ := exists_ofFn pf.theta h6.2
  obtain ⟨R, rfl⟩ := rect_iff.mp hR
  obtain ⟨S, rfl⟩ := rect_iff.mp hS
  obtain ⟨T, rfl⟩ := rect_iff.mp hT
  obtain ⟨u0, u1, u', p0, p', hu, hp, h7⟩ := h7
  have hr : equ.refresh crs (matOf R) (matOf S) (matOf T) cp.xcoms.coms cp.ycoms.coms pf =
      (let w := refreshFn ![u0] v (fun j => a j • (u1 + emb crs.g1_gen)) (fun i => emb (b i)) γ (c, d, ![p0], θ) (R, S, T)
      ⟨⟨List.ofFn w.1, []⟩, ⟨List.ofFn w.2.1, []⟩, [⟨List.ofFn w.2.2.1, List.ofFn w.2.2.2, pf.equ_type, []⟩]⟩) := by
    have := refresh_ofFn ![u0] v (fun j => a j • (u1 + emb crs.g1_gen)) (fun i => emb (b i)) γ R S T c d ![p0] p' θ [] pf.equ_type pf.rand
    rw [← this]
    obtain ⟨pi, theta, ty, rand⟩ := pf
    simp only at hp hθ
    unfold MSMEG2.refresh
    rw [ha, hb, hγ, List.map_ofFn, List.map_ofFn, hc, hd', hu, hv, hp, hθ]
    simp [Function.comp_def]
  rw [MSMEG2.accept_iff, hr]
  refine ⟨_, rfl, h2, by simpa using h3, by simpa using h4, by simpa using h5, ⟨⟨by simp, h6.1.2⟩, by simp [hq]⟩, ?_⟩
  rw [ha, hb, hγ, hc, hd', List.map_ofFn, List.map_ofFn, ofFn1, ofFn1, hv, hθ] at h7
  have := gsEquation_refresh h7 (R, S, T)
  refine ⟨u0, u1, u', _, [], hu, ofFn_one _, ?_⟩
  rw [ha, hb, hγ, List.map_ofFn, List.map_ofFn, hv]
  simp only [ofFn_one] at this
  exact this

/-- C66, QuadEqu: a refreshed proof is accepted. -/
theorem C66_quad_accept (equ : QuadEqu F) {pf : EquProof F G1 G2} (hpf : cp.equ_proofs = [pf])
    (hacc : equ.verify e sch cp crs = .ok true) (hd : equ.Dims cp.xcoms.coms.length cp.ycoms.coms.length) {R S T : Matrix F}
    (hR : Rect cp.xcoms.coms.length 1 R) (hS : Rect cp.ycoms.coms.length 1 S)
    (hT : Rect 1 1 T) (sch' : Scheduler) :
    equ.verify e sch' (equ.refresh crs R S T cp.xcoms.coms cp.ycoms.coms pf) crs = .ok true := by
  obtain ⟨pf', h1, h2, h3, h4, h5, h6, h7⟩ := QuadEqu.accept_iff.mp hacc
  rw [hpf] at h1; cases h1
  obtain ⟨m, hm⟩ : ∃ m, cp.xcoms.coms.length = m := ⟨_, rfl⟩
  obtain ⟨n, hn⟩ : ∃ n, cp.ycoms.coms.length = n := ⟨_, rfl⟩
  rw [hm, hn] at hd h5
  rw [hm] at hR h4
  rw [hn] at hS h3
  obtain ⟨c, hc⟩ := exists_ofFn cp.xcoms.coms hm
  obtain ⟨d, hd'⟩ := exists_ofFn cp.ycoms.coms hn
  obtain ⟨a, ha⟩ := exists_ofFn equ.a_consts hd.a
  obtain ⟨b, hb⟩ := exists_ofFn equ.b_consts hd.b
  obtain ⟨γ, hγ⟩ := rect_iff.mp (⟨hd.rows, hd.cols⟩ : Rect _ _ equ.gamma)
  obtain ⟨R, rfl⟩ := rect_iff.mp hR
  obtain ⟨S, rfl⟩ := rect_iff.mp hS
  obtain ⟨T, rfl⟩ := rect_iff.mp hT
  obtain ⟨u0, u1, u', v0, v1, v', p0, p', t0, t', hu, hv, hp, hth, h7⟩ := h7
  have hr : equ.refresh crs (matOf R) (matOf S) (matOf T) cp.xcoms.coms cp.ycoms.coms pf =
      (let w := refreshFn ![u0] ![v0] (fun j => a j • (u1 + emb crs.g1_gen)) (fun i => b i • (v1 + emb crs.g2_gen)) γ (c, d, ![p0], ![t0]) (R, S, T)
      ⟨⟨List.ofFn w.1, []⟩, ⟨List.ofFn w.2.1, []⟩, [⟨List.ofFn w.2.2.1, List.ofFn w.2.2.2, pf.equ_type, []⟩]⟩) := by
    have := refresh_ofFn ![u0] ![v0] (fun j => a j • (u1 + emb crs.g1_gen)) (fun i => b i • (v1 + emb crs.g2_gen)) γ R S T c d ![p0] p' ![t0] t' pf.equ_type pf.rand
    rw [← this]
    obtain ⟨pi, theta, ty, rand⟩ := pf
    simp only at hp hth
    unfold QuadEqu.refresh
    rw [ha, hb, hγ, List.map_ofFn, List.map_ofFn, hc, hd', hu, hv, hp, hth]
    simp [Function.comp_def]
  rw [QuadEqu.accept_iff, hr]
  refine ⟨_, rfl, h2, by simpa using h3, by simpa using h4, by simpa using h5, ⟨⟨by simp, h6.1.2⟩, by simp, h6.2.2⟩, ?_⟩
  rw [ha, hb, hγ, hc, hd', List.map_ofFn, List.map_ofFn, ofFn1, ofFn1, ofFn1, ofFn1] at h7
  have := gsEquation_refresh h7 (R, S, T)
  refine ⟨u0, u1, u', v0, v1, v', _, [], _, [], hu, hv, ofFn_one _, ofFn_one _, ?_⟩
  rw [ha, hb, hγ, List.map_ofFn, List.map_ofFn]
  simp only [ofFn_one] at this
  exact this

/-- C67, PPE: a linear combination of accepted proofs is accepted for the combination of the equations. -/
theorem C67_ppe {cp' : CProof F G1 G2} (equ equ' : PPE F G1 G2 GT) {pf pf' : EquProof F G1 G2}
    (hpf : cp.equ_proofs = [pf]) (hpf' : cp'.equ_proofs = [pf']) (hx : cp'.xcoms.coms = cp.xcoms.coms)
    (hy : cp'.ycoms.coms = cp.ycoms.coms) (hacc : equ.verify e sch cp crs = .ok true)
    (hacc' : equ'.verify e sch cp' crs = .ok true) (hd : equ.Dims cp.xcoms.coms.length cp.ycoms.coms.length)
    (hd' : equ'.Dims cp.xcoms.coms.length cp.ycoms.coms.length) (s s' : F) (sch' : Scheduler) :
    (PPE.combine s s' equ equ').verify e sch' ⟨cp.xcoms, cp.ycoms, [EquProof.combine s s' pf pf']⟩ crs = .ok true := by
  obtain ⟨pf0, h1, h2, h3, h4, h5, h6, h7⟩ := PPE.accept_iff.mp hacc
  rw [hpf] at h1; cases h1
  obtain ⟨pf0, h1, h2', h3', h4', h5', h6', h7'⟩ := PPE.accept_iff.mp hacc'
  rw [hpf'] at h1; cases h1
  rw [hx, hy] at h7'
  obtain ⟨m, hm⟩ : ∃ m, cp.xcoms.coms.length = m := ⟨_, rfl⟩
  obtain ⟨n, hn⟩ : ∃ n, cp.ycoms.coms.length = n := ⟨_, rfl⟩
  rw [hm, hn] at hd hd' h5
  obtain ⟨c, hc⟩ := exists_ofFn cp.xcoms.coms hm
  obtain ⟨d, hdd⟩ := exists_ofFn cp.ycoms.coms hn
  obtain ⟨a, ha⟩ := exists_ofFn equ.a_consts hd.a
  obtain ⟨b, hb⟩ := exists_ofFn equ.b_consts hd.b
  obtain ⟨γ, hγ⟩ := rect_iff.mp (⟨hd.rows, hd.cols⟩ : Rect _ _ equ.gamma)
  obtain ⟨a', ha'⟩ := exists_ofFn equ'.a_consts hd'.a
  obtain ⟨b', hb'⟩ := exists_ofFn equ'.b_consts hd'.b
  obtain ⟨γ', hγ'⟩ := rect_iff.mp (⟨hd'.rows, hd'.cols⟩ : Rect _ _ equ'.gamma)
  obtain ⟨p, hp⟩ : ∃ p, crs.u.length = p := ⟨_, rfl⟩
  rw [hp] at h6 h6'
  obtain ⟨u, hu⟩ := exists_ofFn crs.u hp
  obtain ⟨π, hπ⟩ := exists_ofFn pf.pi h6.1
  obtain ⟨π', hπ'⟩ := exists_ofFn pf'.pi h6'.1
  obtain ⟨q, hq⟩ : ∃ q, crs.v.length = q := ⟨_, rfl⟩
  rw [hq] at h6 h6'
  obtain ⟨v, hv⟩ := exists_ofFn crs.v hq
  obtain ⟨θ, hθ⟩ := exists_ofFn pf.theta h6.2
  obtain ⟨θ', hθ'⟩ := exists_ofFn pf'.theta h6'.2
  rw [PPE.Equation] at h7 h7'
  rw [ha, hb, hγ, hc, hdd, List.map_ofFn, List.map_ofFn, hu, hπ, hv, hθ] at h7
  rw [ha', hb', hγ', hc, hdd, List.map_ofFn, List.map_ofFn, hu, hπ', hv, hθ'] at h7'
  have key := gsEquation_combine s s' h7 h7'
  have eγ : (PPE.combine s s' equ equ').gamma = matOf fun i j => s * γ i j + s' * γ' i j := by
    simp only [PPE.combine, hγ, hγ', linL_matOf]
  have ea : (PPE.combine s s' equ equ').a_consts = List.ofFn fun j => s • a j + s' • a' j := by
    simp only [PPE.combine, ha, ha', linL_ofFn]
  have eb : (PPE.combine s s' equ equ').b_consts = List.ofFn fun i => s • b i + s' • b' i := by
    simp only [PPE.combine, hb, hb', linL_ofFn]
  refine PPE.accept_iff.mpr ⟨_, rfl, h2, by simp [ea, hn], by simp [eb, hm], ?_, ⟨by simp [EquProof.combine, linL, hp, h6.1, h6'.1], by simp [EquProof.combine, linL, hq, h6.2, h6'.2]⟩, ?_⟩
  · rw [hm, hn, eγ]
    rw [hγ] at h5
    exact gammaDom_congr h5
  · rw [PPE.Equation, ea, eb, eγ, hc, hdd, List.map_ofFn, List.map_ofFn, hu, hv]
    simp only [EquProof.combine, hπ, hπ', hθ, hθ', linL_ofFn]
    simp only [Function.comp_def] at key
    simp only [Function.comp_def, PPE.combine, emb_lin, ppe_lin]
    exact key

/-- C67, MSMEG1: a linear combination of accepted proofs is accepted for the combination of the equations. -/
theorem C67_msmeg1 {cp' : CProof F G1 G2} (equ equ' : MSMEG1 F G1) {pf pf' : EquProof F G1 G2}
    (hpf : cp.equ_proofs = [pf]) (hpf' : cp'.equ_proofs = [pf']) (hx : cp'.xcoms.coms = cp.xcoms.coms)
    (hy : cp'.ycoms.coms = cp.ycoms.coms) (hacc : equ.verify e sch cp crs = .ok true)
    (hacc' : equ'.verify e sch cp' crs = .ok true) (hd : equ.Dims cp.xcoms.coms.length cp.ycoms.coms.length)
    (hd' : equ'.Dims cp.xcoms.coms.length cp.ycoms.coms.length) (s s' : F) (sch' : Scheduler) :
    (MSMEG1.combine s s' equ equ').verify e sch' ⟨cp.xcoms, cp.ycoms, [EquProof.combine s s' pf pf']⟩ crs = .ok true := by
  obtain ⟨pf0, h1, h2, h3, h4, h5, h6, h7⟩ := MSMEG1.accept_iff.mp hacc
  rw [hpf] at h1; cases h1
  obtain ⟨pf0, h1, h2', h3', h4', h5', h6', h7'⟩ := MSMEG1.accept_iff.mp hacc'
  rw [hpf'] at h1; cases h1
  rw [hx, hy] at h7'
  obtain ⟨m, hm⟩ : ∃ m, cp.xcoms.coms.length = m := ⟨_, rfl⟩
  obtain ⟨n, hn⟩ : ∃ n, cp.ycoms.coms.length = n := ⟨_, rfl⟩
  rw [hm, hn] at hd hd' h5
  obtain ⟨c, hc⟩ := exists_ofFn cp.xcoms.coms hm
  obtain ⟨d, hdd⟩ := exists_ofFn cp.ycoms.coms hn
  obtain ⟨a, ha⟩ := exists_ofFn equ.a_consts hd.a
  obtain ⟨b, hb⟩ := exists_ofFn equ.b_consts hd.b
  obtain ⟨γ, hγ⟩ := rect_iff.mp (⟨hd.rows, hd.cols⟩ : Rect _ _ equ.gamma)
  obtain ⟨a', ha'⟩ := exists_ofFn equ'.a_consts hd'.a
  obtain ⟨b', hb'⟩ := exists_ofFn equ'.b_consts hd'.b
  obtain ⟨γ', hγ'⟩ := rect_iff.mp (⟨hd'.rows, hd'.cols⟩ : Rect _ _ equ'.gamma)
  obtain ⟨p, hp⟩ : ∃ p, crs.u.length = p := ⟨_, rfl⟩
  rw [hp] at h6 h6'
  obtain ⟨u, hu⟩ := exists_ofFn crs.u hp
  obtain ⟨π, hπ⟩ := exists_ofFn pf.pi h6.1
  obtain ⟨π', hπ'⟩ := exists_ofFn pf'.pi h6'.1
  obtain ⟨v0, v1, v', t0, t', hv, hth, h7⟩ := h7
  obtain ⟨_, _, _, t0', t'', hv', hth', h7'⟩ := h7'
  rw [hv] at hv'; cases hv'
  rw [ha, hb, hγ, hc, hdd, List.map_ofFn, List.map_ofFn, hu, hπ, ofFn1, ofFn1] at h7
  rw [ha', hb', hγ', hc, hdd, List.map_ofFn, List.map_ofFn, hu, hπ', ofFn1, ofFn1] at h7'
  have key := gsEquation_combine s s' h7 h7'
  have eγ : (MSMEG1.combine s s' equ equ').gamma = matOf fun i j => s * γ i j + s' * γ' i j := by
    simp only [MSMEG1.combine, hγ, hγ', linL_matOf]
  have ea : (MSMEG1.combine s s' equ equ').a_consts = List.ofFn fun j => s • a j + s' • a' j := by
    simp only [MSMEG1.combine, ha, ha', linL_ofFn]
  have eb : (MSMEG1.combine s s' equ equ').b_consts = List.ofFn fun i => s • b i + s' • b' i := by
    simp only [MSMEG1.combine, hb, hb', linL_ofFn]
  refine MSMEG1.accept_iff.mpr ⟨_, rfl, h2, by simp [ea, hn], by simp [eb, hm], ?_, ⟨by simp [EquProof.combine, linL, hp, h6.1, h6'.1], by simp [EquProof.combine, linL, hth, hth'], h6.2.2⟩, ?_⟩
  · rw [hm, hn, eγ]
    rw [hγ] at h5
    exact gammaDom_congr h5
  · refine ⟨v0, v1, v', s • t0 + s' • t0', linL s s' t' t'', hv, by simp [EquProof.combine, linL, hth, hth'], ?_⟩
    rw [ea, eb, eγ, hc, hdd, List.map_ofFn, List.map_ofFn, hu]
    simp only [EquProof.combine, hπ, hπ', linL_ofFn]
    simp only [ofFn_one] at key
    simp only [Function.comp_def] at key
    simp only [Function.comp_def, MSMEG1.combine, emb_lin, smul_lin, tensor_lin_left]
    exact key

/-- C67, MSMEG2: a linear combination of accepted proofs is accepted for the combination of the equations. -/
theorem C67_msmeg2 {cp' : CProof F G1 G2} (equ equ' : MSMEG2 F G2) {pf pf' : EquProof F G1 G2}
    (hpf : cp.equ_proofs = [pf]) (hpf' : cp'.equ_proofs = [pf']) (hx : cp'.xcoms.coms = cp.xcoms.coms)
    (hy : cp'.ycoms.coms = cp.ycoms.coms) (hacc : equ.verify e sch cp crs = .ok true)
    (hacc' : equ'.verify e sch cp' crs = .ok true) (hd : equ.Dims cp.xcoms.coms.length cp.ycoms.coms.length)
    (hd' : equ'.Dims cp.xcoms.coms.length cp.ycoms.coms.length) (s s' : F) (sch' : Scheduler) :
    (MSMEG2.combine s s' equ equ').verify e sch' ⟨cp.xcoms, cp.ycoms, [EquProof.combine s s' pf pf']⟩ crs = .ok true := by
  obtain ⟨pf0, h1, h2, h3, h4, h5, h6, h7⟩ := MSMEG2.accept_iff.mp hacc
  rw [hpf] at h1; cases h1
  obtain ⟨pf0, h1, h2', h3', h4', h5', h6', h7'⟩ := MSMEG2.accept_iff.mp hacc'
  rw [hpf'] at h1; cases h1
  rw [hx, hy] at h7'
  obtain ⟨m, hm⟩ : ∃ m, cp.xcoms.coms.length = m := ⟨_, rfl⟩
  obtain ⟨n, hn⟩ : ∃ n, cp.ycoms.coms.length = n := ⟨_, rfl⟩
  rw [hm, hn] at hd hd' h5
  obtain ⟨c, hc⟩ := exists_ofFn cp.xcoms.coms hm
  obtain ⟨d, hdd⟩ := exists_ofFn cp.ycoms.coms hn
  obtain ⟨a, ha⟩ := exists_ofFn equ.a_consts hd.a
  obtain ⟨b, hb⟩ := exists_ofFn equ.b_consts hd.b
  obtain ⟨γ, hγ⟩ := rect_iff.mp (⟨hd.rows, hd.cols⟩ : Rect _ _ equ.gamma)
  obtain ⟨a', ha'⟩ := exists_ofFn equ'.a_consts hd'.a
  obtain ⟨b', hb'⟩ := exists_ofFn equ'.b_consts hd'.b
  obtain ⟨γ', hγ'⟩ := rect_iff.mp (⟨hd'.rows, hd'.cols⟩ : Rect _ _ equ'.gamma)
  obtain ⟨q, hq⟩ : ∃ q, crs.v.length = q := ⟨_, rfl⟩
  rw [hq] at h6 h6'
  obtain ⟨v, hv⟩ := exists_ofFn crs.v hq
  obtain ⟨θ, hθ⟩ := exists_ofFn pf.theta h6.2
  obtain ⟨θ', hθ'⟩ := exists_ofFn pf'.theta h6'.2
  obtain ⟨u0, u1, u', p0, p', hu, hp, h7⟩ := h7
  obtain ⟨_, _, _, p0', p'', hu', hp', h7'⟩ := h7'
  rw [hu] at hu'; cases hu'
  rw [ha, hb, hγ, hc, hdd, List.map_ofFn, List.map_ofFn, ofFn1, ofFn1, hv, hθ] at h7
  rw [ha', hb', hγ', hc, hdd, List.map_ofFn, List.map_ofFn, ofFn1, ofFn1, hv, hθ'] at h7'
  have key := gsEquation_combine s s' h7 h7'
  have eγ : (MSMEG2.combine s s' equ equ').gamma = matOf fun i j => s * γ i j + s' * γ' i j := by
    simp only [MSMEG2.combine, hγ, hγ', linL_matOf]
  have ea : (MSMEG2.combine s s' equ equ').a_consts = List.ofFn fun j => s • a j + s' • a' j := by
    simp only [MSMEG2.combine, ha, ha', linL_ofFn]
  have eb : (MSMEG2.combine s s' equ equ').b_consts = List.ofFn fun i => s • b i + s' • b' i := by
    simp only [MSMEG2.combine, hb, hb', linL_ofFn]
  refine MSMEG2.accept_iff.mpr ⟨_, rfl, h2, by simp [ea, hn], by simp [eb, hm], ?_, ⟨⟨by simp [EquProof.combine, linL, hp, hp'], h6.1.2⟩, by simp [EquProof.combine, linL, hq, h6.2, h6'.2]⟩, ?_⟩
  · rw [hm, hn, eγ]
    rw [hγ] at h5
    exact gammaDom_congr h5
  · refine ⟨u0, u1, u', s • p0 + s' • p0', linL s s' p' p'', hu, by simp [EquProof.combine, linL, hp, hp'], ?_⟩
    rw [ea, eb, eγ, hc, hdd, List.map_ofFn, List.map_ofFn, hv]
    simp only [EquProof.combine, hθ, hθ', linL_ofFn]
    simp only [ofFn_one] at key
    simp only [Function.comp_def] at key
    simp only [Function.comp_def, MSMEG2.combine, emb_lin, smul_lin, tensor_lin_right]
    exact key

/-- C67, QuadEqu: a linear combination of accepted proofs is accepted for the combination of the equations. -/
theorem C67_quad {cp' : CProof F G1 G2} (equ equ' : QuadEqu F) {pf pf' : EquProof F G1 G2}
    (hpf : cp.equ_proofs = [pf]) (hpf' : cp'.equ_proofs = [pf']) (hx : cp'.xcoms.coms = cp.xcoms.coms)
    (hy : cp'.ycoms.coms = cp.ycoms.coms) (hacc : equ.verify e sch cp crs = .ok true)
    (hacc' : equ'.verify e sch cp' crs = .ok true) (hd : equ.Dims cp.xcoms.coms.length cp.ycoms.coms.length)
    (hd' : equ'.Dims cp.xcoms.coms.length cp.ycoms.coms.length) (s s' : F) (sch' : Scheduler) :
    (QuadEqu.combine s s' equ equ').verify e sch' ⟨cp.xcoms, cp.ycoms, [EquProof.combine s s' pf pf']⟩ crs = .ok true := by
  obtain ⟨pf0, h1, h2, h3, h4, h5, h6, h7⟩ := QuadEqu.accept_iff.mp hacc
  rw [hpf] at h1; cases h1
  obtain ⟨pf0, h1, h2', h3', h4', h5', h6', h7'⟩ := QuadEqu.accept_iff.mp hacc'
  rw [hpf'] at h1; cases h1
  rw [hx, hy] at h7'
  obtain ⟨m, hm⟩ : ∃ m, cp.xcoms.coms.length = m := ⟨_, rfl⟩
  obtain ⟨n, hn⟩ : ∃ n, cp.ycoms.coms.length = n := ⟨_, rfl⟩
  rw [hm, hn] at hd hd' h5
  obtain ⟨c, hc⟩ := exists_ofFn cp.xcoms.coms hm
  obtain ⟨d, hdd⟩ := exists_ofFn cp.ycoms.coms hn
  obtain ⟨a, ha⟩ := exists_ofFn equ.a_consts hd.a
  obtain ⟨b, hb⟩ := exists_ofFn equ.b_consts hd.b
  obtain ⟨γ, hγ⟩ := rect_iff.mp (⟨hd.rows, hd.cols⟩ : Rect _ _ equ.gamma)
  obtain ⟨a', ha'⟩ := exists_ofFn equ'.a_consts hd'.a
  obtain ⟨b', hb'⟩ := exists_ofFn equ'.b_consts hd'.b
  obtain ⟨γ', hγ'⟩ := rect_iff.mp (⟨hd'.rows, hd'.cols⟩ : Rect _ _ equ'.gamma)
  obtain ⟨u0, u1, u', v0, v1, v', p0, p', t0, t', hu, hv, hp, hth, h7⟩ := h7
  obtain ⟨_, _, _, _, _, _, p0', p'', t0', t'', hu', hv', hp', hth', h7'⟩ := h7'
  rw [hu] at hu'; cases hu'
  rw [hv] at hv'; cases hv'
  rw [ha, hb, hγ, hc, hdd, List.map_ofFn, List.map_ofFn, ofFn1, ofFn1, ofFn1, ofFn1] at h7
  rw [ha', hb', hγ', hc, hdd, List.map_ofFn, List.map_ofFn, ofFn1, ofFn1, ofFn1, ofFn1] at h7'
  have key := gsEquation_combine s s' h7 h7'
  have eγ : (QuadEqu.combine s s' equ equ').gamma = matOf fun i j => s * γ i j + s' * γ' i j := by
    simp only [QuadEqu.combine, hγ, hγ', linL_matOf]
  have ea : (QuadEqu.combine s s' equ equ').a_consts = List.ofFn fun j => s • a j + s' • a' j := by
    simp only [QuadEqu.combine, ha, ha', linL_ofFn]
  have eb : (QuadEqu.combine s s' equ equ').b_consts = List.ofFn fun i => s • b i + s' • b' i := by
    simp only [QuadEqu.combine, hb, hb', linL_ofFn]
  refine QuadEqu.accept_iff.mpr ⟨_, rfl, h2, by simp [ea, hn], by simp [eb, hm], ?_, ⟨⟨by simp [EquProof.combine, linL, hp, hp'], h6.1.2⟩, by simp [EquProof.combine, linL, hth, hth'], h6.2.2⟩, ?_⟩
  · rw [hm, hn, eγ]
    rw [hγ] at h5
    exact gammaDom_congr h5
  · refine ⟨u0, u1, u', v0, v1, v', s • p0 + s' • p0', linL s s' p' p'', s • t0 + s' • t0', linL s s' t' t'', hu, hv, by simp [EquProof.combine, linL, hp, hp'], by simp [EquProof.combine, linL, hth, hth'], ?_⟩
    rw [ea, eb, eγ, hc, hdd, List.map_ofFn, List.map_ofFn]
    simp only [ofFn_one] at key
    simp only [Function.comp_def] at key
    simp only [Function.comp_def, QuadEqu.combine, smul_lin]
    exact key

end accept
/-- C66, PPE: on every CRS, refreshing a published proof gives the distribution of a fresh one. -/
theorem C66_ppe_unlinkable {u0 u1 : Com G1} {v0 v1 : Com G2} (hu : crs.u = [u0, u1]) (hv : crs.v = [v0, v1])
    (equ : PPE F G1 G2 GT) (x : List G1) (y : List G2) (hx : x ≠ []) (hy : y ≠ []) (hd : equ.Dims x.length y.length)
    (sch sch' : Nat → Scheduler) (t0 : Fin (2 * x.length + 2 * y.length + 4) → F) {cp : CProof F G1 G2} {pf : EquProof F G1 G2}
    (hpf : cp.equ_proofs = [pf]) (hrun : viewOn (fun rng => equ.commitAndProve sch x y crs rng) t0 = .ok cp.publicPart) :
    SameViews (N := 2 * x.length + 2 * y.length + 4)
      (onTape x.length y.length 2 2 fun R S T => (equ.refresh crs R S T cp.xcoms.coms cp.ycoms.coms pf).publicPart)
      (viewOn fun rng => equ.commitAndProve sch' x y crs rng) := by
  have hm := List.length_pos_iff.mpr hx
  have hn := List.length_pos_iff.mpr hy
  obtain ⟨m, hxm⟩ : ∃ m, x.length = m := ⟨_, rfl⟩
  obtain ⟨n, hyn⟩ : ∃ n, y.length = n := ⟨_, rfl⟩
  revert t0
  rw [hxm] at hm hd
  rw [hyn] at hn hd
  rw [hxm, hyn]
  intro t0 hrun
  obtain ⟨a, ha⟩ := exists_ofFn equ.a_consts hd.a
  obtain ⟨b, hb⟩ := exists_ofFn equ.b_consts hd.b
  obtain ⟨γ, hγ⟩ := rect_iff.mp (⟨hd.rows, hd.cols⟩ : Rect _ _ equ.gamma)
  obtain ⟨x, rfl⟩ := exists_ofFn x hxm
  obtain ⟨y, rfl⟩ := exists_ofFn y hyn
  obtain ⟨r0, hr0⟩ := exists_flat (m := m) (n := n) (p := 2) (q := 2) (List.ofFn t0) (by rw [List.length_ofFn]; omega)
  rw [PPE.view_eq hm hn ha hb hγ x y hu hv t0 r0 hr0] at hrun
  obtain ⟨w, hw⟩ : ∃ w, viewFn ![u0, u1] ![v0, v1] (fun j => emb (a j)) (fun i => i1 (F := F) (x i)) (fun i => emb (b i)) (fun j => i2 (F := F) (y j)) γ r0 = w := ⟨_, rfl⟩
  obtain ⟨h1, h2, pf', hpf', hpi, hth, hty⟩ := publicPart_pub (w := w) ((Except.ok.inj hrun).symm.trans (by rw [← hw]; rfl))
  rw [hpf] at hpf'; cases hpf'
  refine sameViews_of (m := m) (n := n) (p := 2) (q := 2) (by omega) (out := pub .PairingProduct)
    (g := refreshFn ![u0, u1] ![v0, v1] (fun j => emb (a j)) (fun i => emb (b i)) γ w) (fun t r ht => ?_) (PPE.view_eq hm hn ha hb hγ x y hu hv) ⟨shiftRands γ r0, fun r => by rw [← hw]; exact refreshFn_viewFn _ _ _ _ _ _ γ r0 r⟩
  rw [onTape_eq _ t r ht]
  congr 1
  obtain ⟨R, S, T⟩ := r
  obtain ⟨pi, theta, ty, rand⟩ := pf
  simp only at hpi hth hty
  have := refresh_ofFn ![u0, u1] ![v0, v1] (fun j => emb (a j)) (fun i => emb (b i)) γ R S T w.1 w.2.1 w.2.2.1 [] w.2.2.2 [] ty rand
  rw [h1, h2, hpi, hth]
  unfold PPE.refresh
  rw [ha, hb, hγ, hu, hv, List.map_ofFn, List.map_ofFn]
  simp only [List.append_nil, ofFn_one, ofFn_two, Matrix.cons_val_zero, Matrix.cons_val_one] at this
  simp only [List.take_succ_cons, List.take_zero, List.getD_cons_succ, List.getD_cons_zero, Function.comp_def]
  erw [this]
  rw [hty]
  rfl

/-- C66, MSMEG1: on every CRS, refreshing a published proof gives the distribution of a fresh one. -/
theorem C66_msmeg1_unlinkable {u0 u1 : Com G1} {v0 v1 : Com G2} {v' : List (Com G2)} (hu : crs.u = [u0, u1]) (hv : crs.v = v0 :: v1 :: v')
    (equ : MSMEG1 F G1) (x : List G1) (y : List F) (hx : x ≠ []) (hy : y ≠ []) (hd : equ.Dims x.length y.length)
    (sch sch' : Nat → Scheduler) (t0 : Fin (2 * x.length + y.length + 2) → F) {cp : CProof F G1 G2} {pf : EquProof F G1 G2}
    (hpf : cp.equ_proofs = [pf]) (hrun : viewOn (fun rng => equ.commitAndProve sch x y crs rng) t0 = .ok cp.publicPart) :
    SameViews (N := 2 * x.length + y.length + 2)
      (onTape x.length y.length 2 1 fun R S T => (equ.refresh crs R S T cp.xcoms.coms cp.ycoms.coms pf).publicPart)
      (viewOn fun rng => equ.commitAndProve sch' x y crs rng) := by
  have hm := List.length_pos_iff.mpr hx
  have hn := List.length_pos_iff.mpr hy
  obtain ⟨m, hxm⟩ : ∃ m, x.length = m := ⟨_, rfl⟩
  obtain ⟨n, hyn⟩ : ∃ n, y.length = n := ⟨_, rfl⟩
  revert t0
  rw [hxm] at hm hd
  rw [hyn] at hn hd
  rw [hxm, hyn]
  intro t0 hrun
  obtain ⟨a, ha⟩ := exists_ofFn equ.a_consts hd.a
  obtain ⟨b, hb⟩ := exists_ofFn equ.b_consts hd.b
  obtain ⟨γ, hγ⟩ := rect_iff.mp (⟨hd.rows, hd.cols⟩ : Rect _ _ equ.gamma)
  obtain ⟨x, rfl⟩ := exists_ofFn x hxm
  obtain ⟨y, rfl⟩ := exists_ofFn y hyn
  obtain ⟨r0, hr0⟩ := exists_flat (m := m) (n := n) (p := 2) (q := 1) (List.ofFn t0) (by rw [List.length_ofFn]; omega)
  rw [MSMEG1.view_eq hm hn ha hb hγ x y hu hv t0 r0 hr0] at hrun
  obtain ⟨w, hw⟩ : ∃ w, viewFn ![u0, u1] ![v0] (fun j => emb (a j)) (fun i => i1 (F := F) (x i)) (fun i => b i • (v1 + emb crs.g2_gen)) (fun j => y j • (v1 + ⟨0, crs.g2_gen⟩)) γ r0 = w := ⟨_, rfl⟩
  obtain ⟨h1, h2, pf', hpf', hpi, hth, hty⟩ := publicPart_pub (w := w) ((Except.ok.inj hrun).symm.trans (by rw [← hw]; rfl))
  rw [hpf] at hpf'; cases hpf'
  refine sameViews_of (m := m) (n := n) (p := 2) (q := 1) (by omega) (out := pub .MultiScalarG1)
    (g := refreshFn ![u0, u1] ![v0] (fun j => emb (a j)) (fun i => b i • (v1 + emb crs.g2_gen)) γ w) (fun t r ht => ?_) (MSMEG1.view_eq hm hn ha hb hγ x y hu hv) ⟨shiftRands γ r0, fun r => by rw [← hw]; exact refreshFn_viewFn _ _ _ _ _ _ γ r0 r⟩
  rw [onTape_eq _ t r ht]
  congr 1
  obtain ⟨R, S, T⟩ := r
  obtain ⟨pi, theta, ty, rand⟩ := pf
  simp only at hpi hth hty
  have := refresh_ofFn ![u0, u1] ![v0] (fun j => emb (a j)) (fun i => b i • (v1 + emb crs.g2_gen)) γ R S T w.1 w.2.1 w.2.2.1 [] w.2.2.2 [] ty rand
  rw [h1, h2, hpi, hth]
  unfold MSMEG1.refresh
  rw [ha, hb, hγ, hu, hv, List.map_ofFn, List.map_ofFn]
  simp only [List.append_nil, ofFn_one, ofFn_two, Matrix.cons_val_zero, Matrix.cons_val_one] at this
  simp only [List.take_succ_cons, List.take_zero, List.getD_cons_succ, List.getD_cons_zero, Function.comp_def]
  erw [this]
  rw [hty]
  rfl

/-- C66, MSMEG2: on every CRS, refreshing a published proof gives the distribution of a fresh one. -/
theorem C66_msmeg2_unlinkable {u0 u1 : Com G1} {v0 v1 : Com G2} {u' : List (Com G1)} (hu : crs.u = u0 :: u1 :: u') (hv : crs.v = [v0, v1])
    (equ : MSMEG2 F G2) (x : List F) (y : List G2) (hx : x ≠ []) (hy : y ≠ []) (hd : equ.Dims x.length y.length)
    (sch sch' : Nat → Scheduler) (t0 : Fin (x.length + 2 * y.length + 2) → F) {cp : CProof F G1 G2} {pf : EquProof F G1 G2}
    (hpf : cp.equ_proofs = [pf]) (hrun : viewOn (fun rng => equ.commitAndProve sch x y crs rng) t0 = .ok cp.publicPart) :
    SameViews (N := x.length + 2 * y.length + 2)
      (onTape x.length y.length 1 2 fun R S T => (equ.refresh crs R S T cp.xcoms.coms cp.ycoms.coms pf).publicPart)
      (viewOn fun rng => equ.commitAndProve sch' x y crs rng) := by
  have hm := List.length_pos_iff.mpr hx
  have hn := List.length_pos_iff.mpr hy
  obtain ⟨m, hxm⟩ : ∃ m, x.length = m := ⟨_, rfl⟩
  obtain ⟨n, hyn⟩ : ∃ n, y.length = n := ⟨_, rfl⟩
  revert t0
  rw [hxm] at hm hd
  rw [hyn] at hn hd
  rw [hxm, hyn]
  intro t0 hrun
  obtain ⟨a, ha⟩ := exists_ofFn equ.a_consts hd.a
  obtain ⟨b, hb⟩ := exists_ofFn equ.b_consts hd.b
  obtain ⟨γ, hγ⟩ := rect_iff.mp (⟨hd.rows, hd.cols⟩ : Rect _ _ equ.gamma)
  obtain ⟨x, rfl⟩ := exists_ofFn x hxm
  obtain ⟨y, rfl⟩ := exists_ofFn y hyn
  obtain ⟨r0, hr0⟩ := exists_flat (m := m) (n := n) (p := 1) (q := 2) (List.ofFn t0) (by rw [List.length_ofFn]; omega)
  rw [MSMEG2.view_eq hm hn ha hb hγ x y hu hv t0 r0 hr0] at hrun
  obtain ⟨w, hw⟩ : ∃ w, viewFn ![u0] ![v0, v1] (fun j => a j • (u1 + emb crs.g1_gen)) (fun i => x i • (u1 + ⟨0, crs.g1_gen⟩)) (fun i => emb (b i)) (fun j => i2 (F := F) (y j)) γ r0 = w := ⟨_, rfl⟩
  obtain ⟨h1, h2, pf', hpf', hpi, hth, hty⟩ := publicPart_pub (w := w) ((Except.ok.inj hrun).symm.trans (by rw [← hw]; rfl))
  rw [hpf] at hpf'; cases hpf'
  refine sameViews_of (m := m) (n := n) (p := 1) (q := 2) (by omega) (out := pub .MultiScalarG2)
    (g := refreshFn ![u0] ![v0, v1] (fun j => a j • (u1 + emb crs.g1_gen)) (fun i => emb (b i)) γ w) (fun t r ht => ?_) (MSMEG2.view_eq hm hn ha hb hγ x y hu hv) ⟨shiftRands γ r0, fun r => by rw [← hw]; exact refreshFn_viewFn _ _ _ _ _ _ γ r0 r⟩
  rw [onTape_eq _ t r ht]
  congr 1
  obtain ⟨R, S, T⟩ := r
  obtain ⟨pi, theta, ty, rand⟩ := pf
  simp only at hpi hth hty
  have := refresh_ofFn ![u0] ![v0, v1] (fun j => a j • (u1 + emb crs.g1_gen)) (fun i => emb (b i)) γ R S T w.1 w.2.1 w.2.2.1 [] w.2.2.2 [] ty rand
  rw [h1, h2, hpi, hth]
  unfold MSMEG2.refresh
  rw [ha, hb, hγ, hu, hv, List.map_ofFn, List.map_ofFn]
  simp only [List.append_nil, ofFn_one, ofFn_two, Matrix.cons_val_zero, Matrix.cons_val_one] at this
  simp only [List.take_succ_cons, List.take_zero, List.getD_cons_succ, List.getD_cons_zero, Function.comp_def]
  erw [this]
  rw [hty]
  rfl

/-- C66, QuadEqu: on every CRS, refreshing a published proof gives the distribution of a fresh one. -/
theorem C66_quad_unlinkable {u0 u1 : Com G1} {v0 v1 : Com G2} {u' : List (Com G1)} {v' : List (Com G2)} (hu : crs.u = u0 :: u1 :: u') (hv : crs.v = v0 :: v1 :: v')
    (equ : QuadEqu F) (x : List F) (y : List F) (hx : x ≠ []) (hy : y ≠ []) (hd : equ.Dims x.length y.length)
    (sch sch' : Nat → Scheduler) (t0 : Fin (x.length + y.length + 1) → F) {cp : CProof F G1 G2} {pf : EquProof F G1 G2}
    (hpf : cp.equ_proofs = [pf]) (hrun : viewOn (fun rng => equ.commitAndProve sch x y crs rng) t0 = .ok cp.publicPart) :
    SameViews (N := x.length + y.length + 1)
      (onTape x.length y.length 1 1 fun R S T => (equ.refresh crs R S T cp.xcoms.coms cp.ycoms.coms pf).publicPart)
      (viewOn fun rng => equ.commitAndProve sch' x y crs rng) := by
  have hm := List.length_pos_iff.mpr hx
  have hn := List.length_pos_iff.mpr hy
  obtain ⟨m, hxm⟩ : ∃ m, x.length = m := ⟨_, rfl⟩
  obtain ⟨n, hyn⟩ : ∃ n, y.length = n := ⟨_, rfl⟩
  revert t0
  rw [hxm] at hm hd
  rw [hyn] at hn hd
  rw [hxm, hyn]
  intro t0 hrun
  obtain ⟨a, ha⟩ := exists_ofFn equ.a_consts hd.a
  obtain ⟨b, hb⟩ := exists_ofFn equ.b_consts hd.b
  obtain ⟨γ, hγ⟩ := rect_iff.mp (⟨hd.rows, hd.cols⟩ : Rect _ _ equ.gamma)
  obtain ⟨x, rfl⟩ := exists_ofFn x hxm
  obtain ⟨y, rfl⟩ := exists_ofFn y hyn
  obtain ⟨r0, hr0⟩ := exists_flat (m := m) (n := n) (p := 1) (q := 1) (List.ofFn t0) (by rw [List.length_ofFn]; omega)
  rw [QuadEqu.view_eq hm hn ha hb hγ x y hu hv t0 r0 hr0] at hrun
  obtain ⟨w, hw⟩ : ∃ w, viewFn ![u0] ![v0] (fun j => a j • (u1 + emb crs.g1_gen)) (fun i => x i • (u1 + ⟨0, crs.g1_gen⟩)) (fun i => b i • (v1 + emb crs.g2_gen)) (fun j => y j • (v1 + ⟨0, crs.g2_gen⟩)) γ r0 = w := ⟨_, rfl⟩
  obtain ⟨h1, h2, pf', hpf', hpi, hth, hty⟩ := publicPart_pub (w := w) ((Except.ok.inj hrun).symm.trans (by rw [← hw]; rfl))
  rw [hpf] at hpf'; cases hpf'
  refine sameViews_of (m := m) (n := n) (p := 1) (q := 1) (by omega) (out := pub .Quadratic)
    (g := refreshFn ![u0] ![v0] (fun j => a j • (u1 + emb crs.g1_gen)) (fun i => b i • (v1 + emb crs.g2_gen)) γ w) (fun t r ht => ?_) (QuadEqu.view_eq hm hn ha hb hγ x y hu hv) ⟨shiftRands γ r0, fun r => by rw [← hw]; exact refreshFn_viewFn _ _ _ _ _ _ γ r0 r⟩
  rw [onTape_eq _ t r ht]
  congr 1
  obtain ⟨R, S, T⟩ := r
  obtain ⟨pi, theta, ty, rand⟩ := pf
  simp only at hpi hth hty
  have := refresh_ofFn ![u0] ![v0] (fun j => a j • (u1 + emb crs.g1_gen)) (fun i => b i • (v1 + emb crs.g2_gen)) γ R S T w.1 w.2.1 w.2.2.1 [] w.2.2.2 [] ty rand
  rw [h1, h2, hpi, hth]
  unfold QuadEqu.refresh
  rw [ha, hb, hγ, hu, hv, List.map_ofFn, List.map_ofFn]
  simp only [List.append_nil, ofFn_one, ofFn_two, Matrix.cons_val_zero, Matrix.cons_val_one] at this
  simp only [List.take_succ_cons, List.take_zero, List.getD_cons_succ, List.getD_cons_zero, Function.comp_def]
  erw [this]
  rw [hty]
  rfl

/-- C66, PPE: on a simulated CRS, refreshing any accepted proof gives the distribution of a fresh proof of any
witness. -/
theorem C66_ppe_hiding [DecidableEq GT] (he : PrimeGroups e) (hs : SimulatedCrs e crs)
    (hg : crs.NonzeroGens) (equ : PPE F G1 G2 GT) (x : List G1) (y : List G2) (hx : x ≠ []) (hy : y ≠ [])
    (hd : equ.Dims x.length y.length) (h : equ.Holds e x y) (sch : Nat → Scheduler) (sch' : Scheduler)
    {cp : CProof F G1 G2} {pf : EquProof F G1 G2} (hpf : cp.equ_proofs = [pf])
    (hacc : equ.verify e sch' cp crs = .ok true) :
    SameViews (N := 2 * x.length + 2 * y.length + 4)
      (onTape x.length y.length 2 2 fun R S T => (equ.refresh crs R S T cp.xcoms.coms cp.ycoms.coms pf).publicPart)
      (viewOn fun rng => equ.commitAndProve sch x y crs rng) := by
  obtain ⟨u0, u1, v0, v1, a1, t1, a2, t2, hu, hv, ku, kv⟩ := hs.keys he hg
  obtain ⟨t0, ht0, -⟩ := C54_ppe he hs hg equ x y hx hy hd h sch sch' cp hacc
  exact C66_ppe_unlinkable hu hv equ x y hx hy hd sch sch t0 hpf ht0

/-- C66, MSMEG1: on a simulated CRS, refreshing any accepted proof gives the distribution of a fresh proof of any
witness. -/
theorem C66_msmeg1_hiding [DecidableEq GT] (he : PrimeGroups e) (hs : SimulatedCrs e crs)
    (hg : crs.NonzeroGens) (equ : MSMEG1 F G1) (x : List G1) (y : List F) (hx : x ≠ []) (hy : y ≠ [])
    (hd : equ.Dims x.length y.length) (h : equ.Holds x y) (sch : Nat → Scheduler) (sch' : Scheduler)
    {cp : CProof F G1 G2} {pf : EquProof F G1 G2} (hpf : cp.equ_proofs = [pf])
    (hacc : equ.verify e sch' cp crs = .ok true)
    (hth : ∀ pf ∈ cp.equ_proofs, pf.theta.length = 1)
    (hy' : ∀ d ∈ cp.ycoms.coms, ∃ v0 ∈ crs.v.head?, ∃ s : F, d = s • v0) :
    SameViews (N := 2 * x.length + y.length + 2)
      (onTape x.length y.length 2 1 fun R S T => (equ.refresh crs R S T cp.xcoms.coms cp.ycoms.coms pf).publicPart)
      (viewOn fun rng => equ.commitAndProve sch x y crs rng) := by
  obtain ⟨u0, u1, v0, v1, a1, t1, a2, t2, hu, hv, ku, kv⟩ := hs.keys he hg
  obtain ⟨t0, ht0, -⟩ := C54_msmeg1 he hs hg equ x y hx hy hd h sch sch' cp hacc hth hy'
  exact C66_msmeg1_unlinkable hu hv equ x y hx hy hd sch sch t0 hpf ht0

/-- C66, MSMEG2: on a simulated CRS, refreshing any accepted proof gives the distribution of a fresh proof of any
witness. -/
theorem C66_msmeg2_hiding [DecidableEq GT] (he : PrimeGroups e) (hs : SimulatedCrs e crs)
    (hg : crs.NonzeroGens) (equ : MSMEG2 F G2) (x : List F) (y : List G2) (hx : x ≠ []) (hy : y ≠ [])
    (hd : equ.Dims x.length y.length) (h : equ.Holds x y) (sch : Nat → Scheduler) (sch' : Scheduler)
    {cp : CProof F G1 G2} {pf : EquProof F G1 G2} (hpf : cp.equ_proofs = [pf])
    (hacc : equ.verify e sch' cp crs = .ok true)
    (hpi : ∀ pf ∈ cp.equ_proofs, pf.pi.length = 1)
    (hx' : ∀ c ∈ cp.xcoms.coms, ∃ u0 ∈ crs.u.head?, ∃ s : F, c = s • u0) :
    SameViews (N := x.length + 2 * y.length + 2)
      (onTape x.length y.length 1 2 fun R S T => (equ.refresh crs R S T cp.xcoms.coms cp.ycoms.coms pf).publicPart)
      (viewOn fun rng => equ.commitAndProve sch x y crs rng) := by
  obtain ⟨u0, u1, v0, v1, a1, t1, a2, t2, hu, hv, ku, kv⟩ := hs.keys he hg
  obtain ⟨t0, ht0, -⟩ := C54_msmeg2 he hs hg equ x y hx hy hd h sch sch' cp hacc hpi hx'
  exact C66_msmeg2_unlinkable hu hv equ x y hx hy hd sch sch t0 hpf ht0

/-- C66, QuadEqu: on a simulated CRS, refreshing any accepted proof gives the distribution of a fresh proof of any
witness. -/
theorem C66_quad_hiding [DecidableEq GT] (he : PrimeGroups e) (hs : SimulatedCrs e crs)
    (hg : crs.NonzeroGens) (equ : QuadEqu F) (x : List F) (y : List F) (hx : x ≠ []) (hy : y ≠ [])
    (hd : equ.Dims x.length y.length) (h : equ.Holds x y) (sch : Nat → Scheduler) (sch' : Scheduler)
    {cp : CProof F G1 G2} {pf : EquProof F G1 G2} (hpf : cp.equ_proofs = [pf])
    (hacc : equ.verify e sch' cp crs = .ok true)
    (hpi : ∀ pf ∈ cp.equ_proofs, pf.pi.length = 1) (hth : ∀ pf ∈ cp.equ_proofs, pf.theta.length = 1)
    (hx' : ∀ c ∈ cp.xcoms.coms, ∃ u0 ∈ crs.u.head?, ∃ s : F, c = s • u0)
    (hy' : ∀ d ∈ cp.ycoms.coms, ∃ v0 ∈ crs.v.head?, ∃ s : F, d = s • v0) :
    SameViews (N := x.length + y.length + 1)
      (onTape x.length y.length 1 1 fun R S T => (equ.refresh crs R S T cp.xcoms.coms cp.ycoms.coms pf).publicPart)
      (viewOn fun rng => equ.commitAndProve sch x y crs rng) := by
  obtain ⟨u0, u1, v0, v1, a1, t1, a2, t2, hu, hv, ku, kv⟩ := hs.keys he hg
  obtain ⟨t0, ht0, -⟩ := C54_quad he hs hg equ x y hx hy hd h sch sch' cp hacc hpi hth hx' hy'
  exact C66_quad_unlinkable hu hv equ x y hx hy hd sch sch t0 hpf ht0

/-- The hypotheses of C66 and C67 can be met. -/
example (sch : Nat → Scheduler) (t : Fin 10 → Ex.K) : ∃ (cp : CProof Ex.K Ex.K Ex.K) (pf : EquProof Ex.K Ex.K Ex.K),
    cp.equ_proofs = [pf] ∧
    (∀ sch', Ex.ppe7.verify Ex.e7 sch' (Ex.ppe7.refresh Ex.sim7 [[1, 2]] [[3, 4], [5, 6]] [[1, 0], [2, 3]] cp.xcoms.coms cp.ycoms.coms pf)
      Ex.sim7 = .ok true) ∧
    SameViews (N := 10)
      (onTape 1 2 2 2 fun R S T => (Ex.ppe7.refresh Ex.sim7 R S T cp.xcoms.coms cp.ycoms.coms pf).publicPart)
      (viewOn fun rng => Ex.ppe7.commitAndProve sch [0] [1, 0] Ex.sim7 rng) ∧
    (∀ sch', (PPE.combine 2 3 Ex.ppe7 Ex.ppe7).verify Ex.e7 sch' ⟨cp.xcoms, cp.ycoms, [EquProof.combine 2 3 pf pf]⟩ Ex.sim7 =
      .ok true) := by
  obtain ⟨cp, rng', h, h1⟩ := C01_ppe_complete Ex.e7 Ex.ppe7 [2] [3, 4] Ex.sim7 (List.ofFn t) sch (sch 0)
    (by simp) (by simp) Ex.ppe7_dims rfl rfl Ex.ppe7_holds
  obtain ⟨pf, hpf, -, ha, hb, -⟩ := PPE.accept_iff.mp h1
  have hd : Ex.ppe7.Dims cp.xcoms.coms.length cp.ycoms.coms.length := by rw [← ha, ← hb]; exact Ex.ppe7_dims
  have hS : Rect cp.ycoms.coms.length 2 ([[3, 4], [5, 6]] : Matrix Ex.K) := by rw [← ha]; exact ⟨rfl, by decide⟩
  have hR : Rect cp.xcoms.coms.length 2 ([[1, 2]] : Matrix Ex.K) := by rw [← hb]; exact ⟨rfl, by decide⟩
  exact ⟨cp, pf, hpf, C66_ppe_accept Ex.ppe7 hpf h1 hd hR hS ⟨rfl, by decide⟩,
    C66_ppe_hiding Ex.prime7 Ex.sim7_simulated Ex.sim7_nonzero Ex.ppe7 [0] [1, 0] (by simp) (by simp) Ex.ppe7_dims
      Ex.ppe7_holds' sch (sch 0) hpf h1, C67_ppe Ex.ppe7 Ex.ppe7 hpf hpf rfl rfl h1 h1 hd hd 2 3⟩

/-- The hypotheses of C66 and C67 can be met. -/
example (sch : Nat → Scheduler) (t : Fin 6 → Ex.K) : ∃ (cp : CProof Ex.K Ex.K Ex.K) (pf : EquProof Ex.K Ex.K Ex.K),
    cp.equ_proofs = [pf] ∧
    (∀ sch', Ex.msm1_7.verify Ex.e7 sch' (Ex.msm1_7.refresh Ex.sim7 [[1, 2]] [[3], [5]] [[1, 4]] cp.xcoms.coms cp.ycoms.coms pf)
      Ex.sim7 = .ok true) ∧
    SameViews (N := 6)
      (onTape 1 2 2 1 fun R S T => (Ex.msm1_7.refresh Ex.sim7 R S T cp.xcoms.coms cp.ycoms.coms pf).publicPart)
      (viewOn fun rng => Ex.msm1_7.commitAndProve sch [0] [1, 0] Ex.sim7 rng) ∧
    (∀ sch', (MSMEG1.combine 2 3 Ex.msm1_7 Ex.msm1_7).verify Ex.e7 sch' ⟨cp.xcoms, cp.ycoms, [EquProof.combine 2 3 pf pf]⟩ Ex.sim7 =
      .ok true) := by
  obtain ⟨cp, rng', h, h1, h2, h3⟩ := C54_msmeg1_published Ex.prime7 Ex.sim7_simulated Ex.sim7_nonzero Ex.msm1_7
    [2] [3, 4] (by simp) (by simp) Ex.msm1_7_dims Ex.msm1_7_holds sch (sch 0) t
  obtain ⟨pf, hpf, -, ha, hb, -⟩ := MSMEG1.accept_iff.mp h1
  have hd : Ex.msm1_7.Dims cp.xcoms.coms.length cp.ycoms.coms.length := by rw [← ha, ← hb]; exact Ex.msm1_7_dims
  have hS : Rect cp.ycoms.coms.length 1 ([[3], [5]] : Matrix Ex.K) := by rw [← ha]; exact ⟨rfl, by decide⟩
  have hR : Rect cp.xcoms.coms.length 2 ([[1, 2]] : Matrix Ex.K) := by rw [← hb]; exact ⟨rfl, by decide⟩
  exact ⟨cp, pf, hpf, C66_msmeg1_accept Ex.msm1_7 hpf h1 hd hR hS ⟨rfl, by decide⟩,
    C66_msmeg1_hiding Ex.prime7 Ex.sim7_simulated Ex.sim7_nonzero Ex.msm1_7 [0] [1, 0] (by simp) (by simp) Ex.msm1_7_dims
      Ex.msm1_7_holds' sch (sch 0) hpf h1 h2 h3, C67_msmeg1 Ex.msm1_7 Ex.msm1_7 hpf hpf rfl rfl h1 h1 hd hd 2 3⟩

/-- The hypotheses of C66 and C67 can be met. -/
example (sch : Nat → Scheduler) (t : Fin 7 → Ex.K) : ∃ (cp : CProof Ex.K Ex.K Ex.K) (pf : EquProof Ex.K Ex.K Ex.K),
    cp.equ_proofs = [pf] ∧
    (∀ sch', Ex.msm2_7.verify Ex.e7 sch' (Ex.msm2_7.refresh Ex.sim7 [[1]] [[3, 4], [5, 6]] [[1], [4]] cp.xcoms.coms cp.ycoms.coms pf)
      Ex.sim7 = .ok true) ∧
    SameViews (N := 7)
      (onTape 1 2 1 2 fun R S T => (Ex.msm2_7.refresh Ex.sim7 R S T cp.xcoms.coms cp.ycoms.coms pf).publicPart)
      (viewOn fun rng => Ex.msm2_7.commitAndProve sch [0] [1, 0] Ex.sim7 rng) ∧
    (∀ sch', (MSMEG2.combine 2 3 Ex.msm2_7 Ex.msm2_7).verify Ex.e7 sch' ⟨cp.xcoms, cp.ycoms, [EquProof.combine 2 3 pf pf]⟩ Ex.sim7 =
      .ok true) := by
  obtain ⟨cp, rng', h, h1, h2, h3⟩ := C54_msmeg2_published Ex.prime7 Ex.sim7_simulated Ex.sim7_nonzero Ex.msm2_7
    [2] [3, 4] (by simp) (by simp) Ex.msm2_7_dims Ex.msm2_7_holds sch (sch 0) t
  obtain ⟨pf, hpf, -, ha, hb, -⟩ := MSMEG2.accept_iff.mp h1
  have hd : Ex.msm2_7.Dims cp.xcoms.coms.length cp.ycoms.coms.length := by rw [← ha, ← hb]; exact Ex.msm2_7_dims
  have hS : Rect cp.ycoms.coms.length 2 ([[3, 4], [5, 6]] : Matrix Ex.K) := by rw [← ha]; exact ⟨rfl, by decide⟩
  have hR : Rect cp.xcoms.coms.length 1 ([[1]] : Matrix Ex.K) := by rw [← hb]; exact ⟨rfl, by decide⟩
  exact ⟨cp, pf, hpf, C66_msmeg2_accept Ex.msm2_7 hpf h1 hd hR hS ⟨rfl, by decide⟩,
    C66_msmeg2_hiding Ex.prime7 Ex.sim7_simulated Ex.sim7_nonzero Ex.msm2_7 [0] [1, 0] (by simp) (by simp) Ex.msm2_7_dims
      Ex.msm2_7_holds' sch (sch 0) hpf h1 h2 h3, C67_msmeg2 Ex.msm2_7 Ex.msm2_7 hpf hpf rfl rfl h1 h1 hd hd 2 3⟩

/-- The hypotheses of C66 and C67 can be met. -/
example (sch : Nat → Scheduler) (t : Fin 4 → Ex.K) : ∃ (cp : CProof Ex.K Ex.K Ex.K) (pf : EquProof Ex.K Ex.K Ex.K),
    cp.equ_proofs = [pf] ∧
    (∀ sch', Ex.quad7.verify Ex.e7 sch' (Ex.quad7.refresh Ex.sim7 [[1]] [[3], [5]] [[1]] cp.xcoms.coms cp.ycoms.coms pf)
      Ex.sim7 = .ok true) ∧
    SameViews (N := 4)
      (onTape 1 2 1 1 fun R S T => (Ex.quad7.refresh Ex.sim7 R S T cp.xcoms.coms cp.ycoms.coms pf).publicPart)
      (viewOn fun rng => Ex.quad7.commitAndProve sch [0] [1, 0] Ex.sim7 rng) ∧
    (∀ sch', (QuadEqu.combine 2 3 Ex.quad7 Ex.quad7).verify Ex.e7 sch' ⟨cp.xcoms, cp.ycoms, [EquProof.combine 2 3 pf pf]⟩ Ex.sim7 =
      .ok true) := by
  obtain ⟨cp, rng', h, h1, h2, h3, h4, h5⟩ := C54_quad_published Ex.prime7 Ex.sim7_simulated Ex.sim7_nonzero Ex.quad7
    [2] [3, 4] (by simp) (by simp) Ex.quad7_dims Ex.quad7_holds sch (sch 0) t
  obtain ⟨pf, hpf, -, ha, hb, -⟩ := QuadEqu.accept_iff.mp h1
  have hd : Ex.quad7.Dims cp.xcoms.coms.length cp.ycoms.coms.length := by rw [← ha, ← hb]; exact Ex.quad7_dims
  have hS : Rect cp.ycoms.coms.length 1 ([[3], [5]] : Matrix Ex.K) := by rw [← ha]; exact ⟨rfl, by decide⟩
  have hR : Rect cp.xcoms.coms.length 1 ([[1]] : Matrix Ex.K) := by rw [← hb]; exact ⟨rfl, by decide⟩
  exact ⟨cp, pf, hpf, C66_quad_accept Ex.quad7 hpf h1 hd hR hS ⟨rfl, by decide⟩,
    C66_quad_hiding Ex.prime7 Ex.sim7_simulated Ex.sim7_nonzero Ex.quad7 [0] [1, 0] (by simp) (by simp) Ex.quad7_dims
      Ex.quad7_holds' sch (sch 0) hpf h1 h2 h3 h4 h5, C67_quad Ex.quad7 Ex.quad7 hpf hpf rfl rfl h1 h1 hd hd 2 3⟩

example (sch' : Nat → Scheduler) := C66_ppe_unlinkable (crs := Ex.crs7) rfl rfl Ex.ppe7 [2] [3, 4] (by simp) (by simp) Ex.ppe7_dims
  (fun _ => seqSched) sch' (t0 := ![1, 2, 3, 4, 5, 6, 0, 1, 2, 3]) (cp := Ex.ppe7_msg) rfl rfl
example (sch' : Nat → Scheduler) := C66_msmeg1_unlinkable (crs := Ex.crs7) rfl rfl Ex.msm1_7 [2] [3, 4] (by simp) (by simp) Ex.msm1_7_dims
  (fun _ => seqSched) sch' (t0 := ![1, 2, 3, 4, 5, 6]) (cp := Ex.msm1_7_msg) rfl rfl
example (sch' : Nat → Scheduler) := C66_msmeg2_unlinkable (crs := Ex.crs7) rfl rfl Ex.msm2_7 [2] [3, 4] (by simp) (by simp) Ex.msm2_7_dims
  (fun _ => seqSched) sch' (t0 := ![1, 2, 3, 4, 5, 6, 0]) (cp := Ex.msm2_7_msg) rfl rfl
example (sch' : Nat → Scheduler) := C66_quad_unlinkable (crs := Ex.crs7) rfl rfl Ex.quad7 [2] [3, 4] (by simp) (by simp) Ex.quad7_dims
  (fun _ => seqSched) sch' (t0 := ![1, 2, 3, 4]) (cp := Ex.quad7_msg) rfl rfl

end GS
