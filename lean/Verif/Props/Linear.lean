import Verif.Props.Refresh

/-!
# C70: proofs of linear equations can be added together with their commitments

C67 adds proofs about the *same* commitments.  If the equation has no product of two variables (`gamma` is zero), proofs
about *different* commitments can be combined as well: the combined commitments and proof elements are accepted for the
combined target.
-/

set_option linter.unusedSectionVars false

namespace GS
variable {F G1 G2 GT : Type} [Field F] [AddCommGroup G1] [Module F G1] [AddCommGroup G2] [Module F G2]
  [AddCommGroup GT] [Module F GT] {e : G1 →ₗ[F] G2 →ₗ[F] GT} {crs : CRS G1 G2 GT}

theorem gsEquation_linear {m n p q : Nat} {a : Fin n → Com G1} {c c' : Fin m → Com G1} {b : Fin m → Com G2}
    {d d' : Fin n → Com G2} {γ : Fin m → Fin n → F} (hγ : ∀ i j, γ i j = 0) {t t' : ComT GT} {u : Fin p → Com G1}
    {v : Fin q → Com G2} {π π' : Fin p → Com G2} {θ θ' : Fin q → Com G1} (s s' : F)
    (h : gsEquation e (List.ofFn a) (List.ofFn c) (List.ofFn b) (List.ofFn d) (matOf γ) t (List.ofFn u) (List.ofFn π)
        (List.ofFn θ) (List.ofFn v))
    (h' : gsEquation e (List.ofFn a) (List.ofFn c') (List.ofFn b) (List.ofFn d') (matOf γ) t' (List.ofFn u) (List.ofFn π')
        (List.ofFn θ') (List.ofFn v)) :
    gsEquation e (List.ofFn a) (List.ofFn fun i => s • c i + s' • c' i) (List.ofFn b)
      (List.ofFn fun j => s • d j + s' • d' j) (matOf γ) (s • t + s' • t') (List.ofFn u)
      (List.ofFn fun k => s • π k + s' • π' k) (List.ofFn fun l => s • θ l + s' • θ' l) (List.ofFn v) := by
  rw [gsEquation_ofFn] at h h' ⊢
  have h := congrArg (s • ·) h
  have h' := congrArg (s' • ·) h'
  simp only [hγ, zero_smul, Finset.sum_const_zero, map_zero, add_zero, map_smul, map_add, LinearMap.add_apply,
    LinearMap.smul_apply, smul_add, Finset.sum_add_distrib, Finset.smul_sum] at h h' ⊢
  have := congrArg₂ (· + ·) h h'
  calc _ = _ := by abel
    _ = _ := this
    _ = _ := by abel

section accept
variable [DecidableEq GT] {sch : Scheduler} {cp cp' : CProof F G1 G2}

/-- C70, PPE: if the equation is linear, a linear combination of accepted commitments and proofs is accepted for the
combination of the targets. -/
theorem C70_ppe (equ : PPE F G1 G2 GT) (t' : GT) {pf pf' : EquProof F G1 G2}
    (hpf : cp.equ_proofs = [pf]) (hpf' : cp'.equ_proofs = [pf']) (hacc : equ.verify e sch cp crs = .ok true)
    (hacc' : PPE.verify e sch { equ with target := t' } cp' crs = .ok true)
    (hd : equ.Dims cp.xcoms.coms.length cp.ycoms.coms.length) (hz : ∀ row ∈ equ.gamma, ∀ g ∈ row, g = 0) (s s' : F)
    (sch' : Scheduler) :
    PPE.verify e sch' { equ with target := s • equ.target + s' • t' }
      ⟨⟨linL s s' cp.xcoms.coms cp'.xcoms.coms, []⟩, ⟨linL s s' cp.ycoms.coms cp'.ycoms.coms, []⟩,
        [EquProof.combine s s' pf pf']⟩ crs = .ok true := by
  obtain ⟨pf0, h1, h2, h3, h4, h5, h6, h7⟩ := PPE.accept_iff.mp hacc
  rw [hpf] at h1; cases h1
  obtain ⟨pf0, h1, h2', h3', h4', h5', h6', h7'⟩ := PPE.accept_iff.mp hacc'
  rw [hpf'] at h1; cases h1
  obtain ⟨m, hm⟩ : ∃ m, cp.xcoms.coms.length = m := ⟨_, rfl⟩
  obtain ⟨n, hn⟩ : ∃ n, cp.ycoms.coms.length = n := ⟨_, rfl⟩
  have hm' : cp'.xcoms.coms.length = m := by rw [← h4', ← hm]; exact h4
  have hn' : cp'.ycoms.coms.length = n := by rw [← h3', ← hn]; exact h3
  rw [hm, hn] at hd h5
  obtain ⟨c, hc⟩ := exists_ofFn cp.xcoms.coms hm
  obtain ⟨d, hdd⟩ := exists_ofFn cp.ycoms.coms hn
  obtain ⟨c', hc'⟩ := exists_ofFn cp'.xcoms.coms hm'
  obtain ⟨d', hdd'⟩ := exists_ofFn cp'.ycoms.coms hn'
  obtain ⟨a, ha⟩ := exists_ofFn equ.a_consts hd.a
  obtain ⟨b, hb⟩ := exists_ofFn equ.b_consts hd.b
  obtain ⟨γ, hγ⟩ := rect_iff.mp (⟨hd.rows, hd.cols⟩ : Rect _ _ equ.gamma)
  have hz' : ∀ i j, γ i j = 0 := by
    intro i j
    refine hz (List.ofFn (γ i)) ?_ _ (List.mem_ofFn.mpr ⟨j, rfl⟩)
    rw [hγ]; exact List.mem_ofFn.mpr ⟨i, rfl⟩
  obtain ⟨p, hp⟩ : ∃ p, crs.u.length = p := ⟨_, rfl⟩
  rw [hp] at h6 h6'
  obtain ⟨u, hu⟩ := exists_ofFn crs.u hp
  obtain ⟨π, hπ⟩ := exists_ofFn pf.pi h6.1
  obtain ⟨π', hπ'⟩ := exists_ofFn pf'.pi h6'.1
  obtain ⟨q, hq⟩ : ∃ q, crs.v.length = q := ⟨_, rfl⟩
  rw [hq] at h6 h6'
  obtain ⟨v, hv⟩ := exists_ofFn crs.v hq
  obtain ⟨θ, hθ⟩ := exists_ofFn pf.theta h6.2
  obtain ⟨θ', hθ'⟩ := exists_ofFn pf'.theta h6'.2
  rw [PPE.Equation] at h7 h7'
  simp only at h7'
  rw [ha, hb, hγ, hc, hdd, List.map_ofFn, List.map_ofFn, hu, hπ, hv, hθ] at h7
  rw [ha, hb, hγ, hc', hdd', List.map_ofFn, List.map_ofFn, hu, hπ', hv, hθ'] at h7'
  have key := gsEquation_linear hz' s s' h7 h7'
  refine PPE.accept_iff.mpr ⟨_, rfl, h2, by simp [linL, hn, hn', hd.a], by simp [linL, hm, hm', hd.b], ?_, ⟨by simp [EquProof.combine, linL, hp, h6.1, h6'.1], by simp [EquProof.combine, linL, hq, h6.2, h6'.2]⟩, ?_⟩
  · simpa [linL, hm, hm', hn, hn'] using h5
  · rw [PPE.Equation]
    simp only [ha, hb, hγ, hc, hc', hdd, hdd', List.map_ofFn, hu, hv, EquProof.combine, hπ, hπ', hθ, hθ', linL_ofFn]
    simp only [Function.comp_def] at key
    simp only [Function.comp_def, ppe_lin]
    exact key

/-- C70, MSMEG1: if the equation is linear, a linear combination of accepted commitments and proofs is accepted for the
combination of the targets. -/
theorem C70_msmeg1 (equ : MSMEG1 F G1) (t' : G1) {pf pf' : EquProof F G1 G2}
    (hpf : cp.equ_proofs = [pf]) (hpf' : cp'.equ_proofs = [pf']) (hacc : equ.verify e sch cp crs = .ok true)
    (hacc' : MSMEG1.verify e sch { equ with target := t' } cp' crs = .ok true)
    (hd : equ.Dims cp.xcoms.coms.length cp.ycoms.coms.length) (hz : ∀ row ∈ equ.gamma, ∀ g ∈ row, g = 0) (s s' : F)
    (sch' : Scheduler) :
    MSMEG1.verify e sch' { equ with target := s • equ.target + s' • t' }
      ⟨⟨linL s s' cp.xcoms.coms cp'.xcoms.coms, []⟩, ⟨linL s s' cp.ycoms.coms cp'.ycoms.coms, []⟩,
        [EquProof.combine s s' pf pf']⟩ crs = .ok true := by
  obtain ⟨pf0, h1, h2, h3, h4, h5, h6, h7⟩ := MSMEG1.accept_iff.mp hacc
  rw [hpf] at h1; cases h1
  obtain ⟨pf0, h1, h2', h3', h4', h5', h6', h7'⟩ := MSMEG1.accept_iff.mp hacc'
  rw [hpf'] at h1; cases h1
  obtain ⟨m, hm⟩ : ∃ m, cp.xcoms.coms.length = m := ⟨_, rfl⟩
  obtain ⟨n, hn⟩ : ∃ n, cp.ycoms.coms.length = n := ⟨_, rfl⟩
  have hm' : cp'.xcoms.coms.length = m := by rw [← h4', ← hm]; exact h4
  have hn' : cp'.ycoms.coms.length = n := by rw [← h3', ← hn]; exact h3
  rw [hm, hn] at hd h5
  obtain ⟨c, hc⟩ := exists_ofFn cp.xcoms.coms hm
  obtain ⟨d, hdd⟩ := exists_ofFn cp.ycoms.coms hn
  obtain ⟨c', hc'⟩ := exists_ofFn cp'.xcoms.coms hm'
  obtain ⟨d', hdd'⟩ := exists_ofFn cp'.ycoms.coms hn'
  obtain ⟨a, ha⟩ := exists_ofFn equ.a_consts hd.a
  obtain ⟨b, hb⟩ := exists_ofFn equ.b_consts hd.b
  obtain ⟨γ, hγ⟩ := rect_iff.mp (⟨hd.rows, hd.cols⟩ : Rect _ _ equ.gamma)
  have hz' : ∀ i j, γ i j = 0 := by
    intro i j
    refine hz (List.ofFn (γ i)) ?_ _ (List.mem_ofFn.mpr ⟨j, rfl⟩)
    rw [hγ]; exact List.mem_ofFn.mpr ⟨i, rfl⟩
  obtain ⟨p, hp⟩ : ∃ p, crs.u.length = p := ⟨_, rfl⟩
  rw [hp] at h6 h6'
  obtain ⟨u, hu⟩ := exists_ofFn crs.u hp
  obtain ⟨π, hπ⟩ := exists_ofFn pf.pi h6.1
  obtain ⟨π', hπ'⟩ := exists_ofFn pf'.pi h6'.1
  obtain ⟨v0, v1, v', t0, t1, hv, hth, h7⟩ := h7
  obtain ⟨_, _, _, t0', t'', hv', hth', h7'⟩ := h7'
  rw [hv] at hv'; cases hv'
  simp only at h7'
  rw [ha, hb, hγ, hc, hdd, List.map_ofFn, List.map_ofFn, hu, hπ, ofFn1, ofFn1] at h7
  rw [ha, hb, hγ, hc', hdd', List.map_ofFn, List.map_ofFn, hu, hπ', ofFn1, ofFn1] at h7'
  have key := gsEquation_linear hz' s s' h7 h7'
  refine MSMEG1.accept_iff.mpr ⟨_, rfl, h2, by simp [linL, hn, hn', hd.a], by simp [linL, hm, hm', hd.b], ?_, ⟨by simp [EquProof.combine, linL, hp, h6.1, h6'.1], by simp [EquProof.combine, linL, hth, hth'], h6.2.2⟩, ?_⟩
  · simpa [linL, hm, hm', hn, hn'] using h5
  · refine ⟨v0, v1, v', s • t0 + s' • t0', linL s s' t1 t'', hv, (by simp only [EquProof.combine, linL, hth, hth', List.zipWith_cons_cons]), ?_⟩
    simp only [ha, hb, hγ, hc, hc', hdd, hdd', List.map_ofFn, hu, hπ, hπ', EquProof.combine, linL_ofFn]
    simp only [Function.comp_def, ofFn_one] at key
    simp only [Function.comp_def, emb_lin, tensor_lin_left]
    exact key

/-- C70, MSMEG2: if the equation is linear, a linear combination of accepted commitments and proofs is accepted for the
combination of the targets. -/
theorem C70_msmeg2 (equ : MSMEG2 F G2) (t' : G2) {pf pf' : EquProof F G1 G2}
    (hpf : cp.equ_proofs = [pf]) (hpf' : cp'.equ_proofs = [pf']) (hacc : equ.verify e sch cp crs = .ok true)
    (hacc' : MSMEG2.verify e sch { equ with target := t' } cp' crs = .ok true)
    (hd : equ.Dims cp.xcoms.coms.length cp.ycoms.coms.length) (hz : ∀ row ∈ equ.gamma, ∀ g ∈ row, g = 0) (s s' : F)
    (sch' : Scheduler) :
    MSMEG2.verify e sch' { equ with target := s • equ.target + s' • t' }
      ⟨⟨linL s s' cp.xcoms.coms cp'.xcoms.coms, []⟩, ⟨linL s s' cp.ycoms.coms cp'.ycoms.coms, []⟩,
        [EquProof.combine s s' pf pf']⟩ crs = .ok true := by
  obtain ⟨pf0, h1, h2, h3, h4, h5, h6, h7⟩ := MSMEG2.accept_iff.mp hacc
  rw [hpf] at h1; cases h1
  obtain ⟨pf0, h1, h2', h3', h4', h5', h6', h7'⟩ := MSMEG2.accept_iff.mp hacc'
  rw [hpf'] at h1; cases h1
  obtain ⟨m, hm⟩ : ∃ m, cp.xcoms.coms.length = m := ⟨_, rfl⟩
  obtain ⟨n, hn⟩ : ∃ n, cp.ycoms.coms.length = n := ⟨_, rfl⟩
  have hm' : cp'.xcoms.coms.length = m := by rw [← h4', ← hm]; exact h4
  have hn' : cp'.ycoms.coms.length = n := by rw [← h3', ← hn]; exact h3
  rw [hm, hn] at hd h5
  obtain ⟨c, hc⟩ := exists_ofFn cp.xcoms.coms hm
  obtain ⟨d, hdd⟩ := exists_ofFn cp.ycoms.coms hn
  obtain ⟨c', hc'⟩ := exists_ofFn cp'.xcoms.coms hm'
  obtain ⟨d', hdd'⟩ := exists_ofFn cp'.ycoms.coms hn'
  obtain ⟨a, ha⟩ := exists_ofFn equ.a_consts hd.a
  obtain ⟨b, hb⟩ := exists_ofFn equ.b_consts hd.b
  obtain ⟨γ, hγ⟩ := rect_iff.mp (⟨hd.rows, hd.cols⟩ : Rect _ _ equ.gamma)
  have hz' : ∀ i j, γ i j = 0 := by
    intro i j
    refine hz (List.ofFn (γ i)) ?_ _ (List.mem_ofFn.mpr ⟨j, rfl⟩)
    rw [hγ]; exact List.mem_ofFn.mpr ⟨i, rfl⟩
  obtain ⟨q, hq⟩ : ∃ q, crs.v.length = q := ⟨_, rfl⟩
  rw [hq] at h6 h6'
  obtain ⟨v, hv⟩ := exists_ofFn crs.v hq
  obtain ⟨θ, hθ⟩ := exists_ofFn pf.theta h6.2
  obtain ⟨θ', hθ'⟩ := exists_ofFn pf'.theta h6'.2
  obtain ⟨u0, u1, u', p0, p', hu, hp, h7⟩ := h7
  obtain ⟨_, _, _, p0', p'', hu', hp', h7'⟩ := h7'
  rw [hu] at hu'; cases hu'
  simp only at h7'
  rw [ha, hb, hγ, hc, hdd, List.map_ofFn, List.map_ofFn, ofFn1, ofFn1, hv, hθ] at h7
  rw [ha, hb, hγ, hc', hdd', List.map_ofFn, List.map_ofFn, ofFn1, ofFn1, hv, hθ'] at h7'
  have key := gsEquation_linear hz' s s' h7 h7'
  refine MSMEG2.accept_iff.mpr ⟨_, rfl, h2, by simp [linL, hn, hn', hd.a], by simp [linL, hm, hm', hd.b], ?_, ⟨⟨by simp [EquProof.combine, linL, hp, hp'], h6.1.2⟩, by simp [EquProof.combine, linL, hq, h6.2, h6'.2]⟩, ?_⟩
  · simpa [linL, hm, hm', hn, hn'] using h5
  · refine ⟨u0, u1, u', s • p0 + s' • p0', linL s s' p' p'', hu, (by simp only [EquProof.combine, linL, hp, hp', List.zipWith_cons_cons]), ?_⟩
    simp only [ha, hb, hγ, hc, hc', hdd, hdd', List.map_ofFn, hv, hθ, hθ', EquProof.combine, linL_ofFn]
    simp only [Function.comp_def, ofFn_one] at key
    simp only [Function.comp_def, emb_lin, tensor_lin_right]
    exact key

/-- C70, QuadEqu: if the equation is linear, a linear combination of accepted commitments and proofs is accepted for the
combination of the targets. -/
theorem C70_quad (equ : QuadEqu F) (t' : F) {pf pf' : EquProof F G1 G2}
    (hpf : cp.equ_proofs = [pf]) (hpf' : cp'.equ_proofs = [pf']) (hacc : equ.verify e sch cp crs = .ok true)
    (hacc' : QuadEqu.verify e sch { equ with target := t' } cp' crs = .ok true)
    (hd : equ.Dims cp.xcoms.coms.length cp.ycoms.coms.length) (hz : ∀ row ∈ equ.gamma, ∀ g ∈ row, g = 0) (s s' : F)
    (sch' : Scheduler) :
    QuadEqu.verify e sch' { equ with target := s • equ.target + s' • t' }
      ⟨⟨linL s s' cp.xcoms.coms cp'.xcoms.coms, []⟩, ⟨linL s s' cp.ycoms.coms cp'.ycoms.coms, []⟩,
        [EquProof.combine s s' pf pf']⟩ crs = .ok true := by
  obtain ⟨pf0, h1, h2, h3, h4, h5, h6, h7⟩ := QuadEqu.accept_iff.mp hacc
  rw [hpf] at h1; cases h1
  obtain ⟨pf0, h1, h2', h3', h4', h5', h6', h7'⟩ := QuadEqu.accept_iff.mp hacc'
  rw [hpf'] at h1; cases h1
  obtain ⟨m, hm⟩ : ∃ m, cp.xcoms.coms.length = m := ⟨_, rfl⟩
  obtain ⟨n, hn⟩ : ∃ n, cp.ycoms.coms.length = n := ⟨_, rfl⟩
  have hm' : cp'.xcoms.coms.length = m := by rw [← h4', ← hm]; exact h4
  have hn' : cp'.ycoms.coms.length = n := by rw [← h3', ← hn]; exact h3
  rw [hm, hn] at hd h5
  obtain ⟨c, hc⟩ := exists_ofFn cp.xcoms.coms hm
  obtain ⟨d, hdd⟩ := exists_ofFn cp.ycoms.coms hn
  obtain ⟨c', hc'⟩ := exists_ofFn cp'.xcoms.coms hm'
  obtain ⟨d', hdd'⟩ := exists_ofFn cp'.ycoms.coms hn'
  obtain ⟨a, ha⟩ := exists_ofFn equ.a_consts hd.a
  obtain ⟨b, hb⟩ := exists_ofFn equ.b_consts hd.b
  obtain ⟨γ, hγ⟩ := rect_iff.mp (⟨hd.rows, hd.cols⟩ : Rect _ _ equ.gamma)
  have hz' : ∀ i j, γ i j = 0 := by
    intro i j
    refine hz (List.ofFn (γ i)) ?_ _ (List.mem_ofFn.mpr ⟨j, rfl⟩)
    rw [hγ]; exact List.mem_ofFn.mpr ⟨i, rfl⟩
  obtain ⟨u0, u1, u', v0, v1, v', p0, p', t0, t1, hu, hv, hp, hth, h7⟩ := h7
  obtain ⟨_, _, _, _, _, _, p0', p'', t0', t'', hu', hv', hp', hth', h7'⟩ := h7'
  rw [hu] at hu'; cases hu'
  rw [hv] at hv'; cases hv'
  simp only at h7'
  rw [ha, hb, hγ, hc, hdd, List.map_ofFn, List.map_ofFn, ofFn1, ofFn1, ofFn1, ofFn1] at h7
  rw [ha, hb, hγ, hc', hdd', List.map_ofFn, List.map_ofFn, ofFn1, ofFn1, ofFn1, ofFn1] at h7'
  have key := gsEquation_linear hz' s s' h7 h7'
  refine QuadEqu.accept_iff.mpr ⟨_, rfl, h2, by simp [linL, hn, hn', hd.a], by simp [linL, hm, hm', hd.b], ?_, ⟨⟨by simp [EquProof.combine, linL, hp, hp'], h6.1.2⟩, by simp [EquProof.combine, linL, hth, hth'], h6.2.2⟩, ?_⟩
  · simpa [linL, hm, hm', hn, hn'] using h5
  · refine ⟨u0, u1, u', v0, v1, v', s • p0 + s' • p0', linL s s' p' p'', s • t0 + s' • t0', linL s s' t1 t'', hu, hv, (by simp only [EquProof.combine, linL, hp, hp', List.zipWith_cons_cons]), (by simp only [EquProof.combine, linL, hth, hth', List.zipWith_cons_cons]), ?_⟩
    simp only [ha, hb, hγ, hc, hc', hdd, hdd', List.map_ofFn, linL_ofFn]
    simp only [Function.comp_def, ofFn_one] at key
    simp only [Function.comp_def, smul_lin]
    exact key

end accept

/-! ## Examples -/

/-- Two proofs of linear equations with targets 0 and 1 give one for the target `2 * 0 + 3 * 1`. -/
example (sch : Nat → Scheduler) : ∃ cp : CProof Ex.K Ex.K Ex.K,
    PPE.verify Ex.e7 (sch 1) (⟨[1, 2], [5], [[0, 0]], 3⟩ : PPE Ex.K Ex.K Ex.K Ex.K) cp Ex.crs7 = .ok true := by
  obtain ⟨cp, _, _, h⟩ := C01_ppe_complete Ex.e7 (⟨[1, 2], [5], [[0, 0]], 0⟩ : PPE Ex.K Ex.K Ex.K Ex.K) [2] [3, 4] Ex.crs7 (0 : Nat) sch (sch 0)
    (by simp) (by simp) (by constructor <;> simp) rfl rfl (by unfold PPE.Holds; decide)
  obtain ⟨cp', _, _, h'⟩ := C01_ppe_complete Ex.e7 (⟨[1, 2], [5], [[0, 0]], 1⟩ : PPE Ex.K Ex.K Ex.K Ex.K) [0] [1, 0] Ex.crs7 (7 : Nat) sch (sch 0)
    (by simp) (by simp) (by constructor <;> simp) rfl rfl (by unfold PPE.Holds; decide)
  obtain ⟨pf, hpf, -, ha, hb, -⟩ := PPE.accept_iff.mp h
  obtain ⟨pf', hpf', -⟩ := PPE.accept_iff.mp h'
  exact ⟨_, C70_ppe _ 1 hpf hpf' h h' (by rw [← ha, ← hb]; constructor <;> simp) (by simp) 2 3 (sch 1)⟩

/-- Two proofs of linear equations with targets 0 and 1 give one for the target `2 * 0 + 3 * 1`. -/
example (sch : Nat → Scheduler) : ∃ cp : CProof Ex.K Ex.K Ex.K,
    MSMEG1.verify Ex.e7 (sch 1) (⟨[1, 2], [5], [[0, 0]], 3⟩ : MSMEG1 Ex.K Ex.K) cp Ex.crs7 = .ok true := by
  obtain ⟨cp, _, _, h⟩ := C02_msmeg1_complete Ex.e7 (⟨[1, 2], [5], [[0, 0]], 0⟩ : MSMEG1 Ex.K Ex.K) [2] [3, 4] Ex.crs7 (0 : Nat) sch (sch 0)
    (by simp) (by simp) (by constructor <;> simp) rfl rfl (by unfold MSMEG1.Holds; decide)
  obtain ⟨cp', _, _, h'⟩ := C02_msmeg1_complete Ex.e7 (⟨[1, 2], [5], [[0, 0]], 1⟩ : MSMEG1 Ex.K Ex.K) [0] [1, 0] Ex.crs7 (7 : Nat) sch (sch 0)
    (by simp) (by simp) (by constructor <;> simp) rfl rfl (by unfold MSMEG1.Holds; decide)
  obtain ⟨pf, hpf, -, ha, hb, -⟩ := MSMEG1.accept_iff.mp h
  obtain ⟨pf', hpf', -⟩ := MSMEG1.accept_iff.mp h'
  exact ⟨_, C70_msmeg1 _ 1 hpf hpf' h h' (by rw [← ha, ← hb]; constructor <;> simp) (by simp) 2 3 (sch 1)⟩

/-- Two proofs of linear equations with targets 0 and 1 give one for the target `2 * 0 + 3 * 1`. -/
example (sch : Nat → Scheduler) : ∃ cp : CProof Ex.K Ex.K Ex.K,
    MSMEG2.verify Ex.e7 (sch 1) (⟨[1, 2], [5], [[0, 0]], 3⟩ : MSMEG2 Ex.K Ex.K) cp Ex.crs7 = .ok true := by
  obtain ⟨cp, _, _, h⟩ := C03_msmeg2_complete Ex.e7 (⟨[1, 2], [5], [[0, 0]], 0⟩ : MSMEG2 Ex.K Ex.K) [2] [3, 4] Ex.crs7 (0 : Nat) sch (sch 0)
    (by simp) (by simp) (by constructor <;> simp) rfl rfl (by unfold MSMEG2.Holds; decide)
  obtain ⟨cp', _, _, h'⟩ := C03_msmeg2_complete Ex.e7 (⟨[1, 2], [5], [[0, 0]], 1⟩ : MSMEG2 Ex.K Ex.K) [0] [1, 0] Ex.crs7 (7 : Nat) sch (sch 0)
    (by simp) (by simp) (by constructor <;> simp) rfl rfl (by unfold MSMEG2.Holds; decide)
  obtain ⟨pf, hpf, -, ha, hb, -⟩ := MSMEG2.accept_iff.mp h
  obtain ⟨pf', hpf', -⟩ := MSMEG2.accept_iff.mp h'
  exact ⟨_, C70_msmeg2 _ 1 hpf hpf' h h' (by rw [← ha, ← hb]; constructor <;> simp) (by simp) 2 3 (sch 1)⟩

/-- Two proofs of linear equations with targets 0 and 1 give one for the target `2 * 0 + 3 * 1`. -/
example (sch : Nat → Scheduler) : ∃ cp : CProof Ex.K Ex.K Ex.K,
    QuadEqu.verify Ex.e7 (sch 1) (⟨[1, 2], [5], [[0, 0]], 3⟩ : QuadEqu Ex.K) cp Ex.crs7 = .ok true := by
  obtain ⟨cp, _, _, h⟩ := C04_quad_complete Ex.e7 (⟨[1, 2], [5], [[0, 0]], 0⟩ : QuadEqu Ex.K) [2] [3, 4] Ex.crs7 (0 : Nat) sch (sch 0)
    (by simp) (by simp) (by constructor <;> simp) rfl rfl (by unfold QuadEqu.Holds; decide)
  obtain ⟨cp', _, _, h'⟩ := C04_quad_complete Ex.e7 (⟨[1, 2], [5], [[0, 0]], 1⟩ : QuadEqu Ex.K) [0] [1, 0] Ex.crs7 (7 : Nat) sch (sch 0)
    (by simp) (by simp) (by constructor <;> simp) rfl rfl (by unfold QuadEqu.Holds; decide)
  obtain ⟨pf, hpf, -, ha, hb, -⟩ := QuadEqu.accept_iff.mp h
  obtain ⟨pf', hpf', -⟩ := QuadEqu.accept_iff.mp h'
  exact ⟨_, C70_quad _ 1 hpf hpf' h h' (by rw [← ha, ← hb]; constructor <;> simp) (by simp) 2 3 (sch 1)⟩

end GS
